import Verif.Lemmas.WideExample
/-!
# Listings that need more nodes than the cache has entries
-/
namespace Verif
open Res Spec BTree FsTree
namespace NodeCache

/-- the blocks that an enumeration reads for an entry of a branch node: that of the child and those below it -/
def loadsBelow {α : Type} (k : Kind α) (v : Volume) (xid i fuel : Nat) (value : Bytes) : Res (List Nat) := do
  let b ← blockOf v xid value
  let m ← fsSubNode v b
  let l ← loads k v xid i fuel m
  return b :: l

def empty : Cache := { slots := [], next := 0 }

theorem getRoot_empty {capacity : Nat} (h0 : 0 < capacity) {p : Policy} (hp : OldestFirst p capacity) {v : Volume} {n : Node} (hn : fsRootNode v = ok (some n)) :
    getRoot p v empty = (ok (some ⟨v.fsRoot, 0, n⟩), { slots := [⟨v.fsRoot, 0, n⟩], next := 1 }) := by
  unfold getRoot get
  rw [if_neg (fsRootNode_node hn).1]
  have : loadRoot v v.fsRoot = ok (some n) := hn
  have hr : room p [] v.fsRoot = [] := by
    unfold room
    rw [hp, if_pos (show ([] : List Slot).length < capacity from h0)]
  simp only [empty, List.find?_nil, this, hr, List.nil_append]

theorem enumerate_freed {α : Type} {k : Kind α} {capacity : Nat} (h0 : 0 < capacity) {p : Policy} (hp : OldestFirst p capacity) {v : Volume} {xid i : Nat} {n : Node}
    (hn : fsRootNode v = ok (some n)) (hl : n.leaf = false) {front : List Bytes} {last : Bytes} (hf : visits k i n.entries none = ok (front ++ [last])) {parts : List (List Nat)}
    (hparts : front.map (loadsBelow k v xid i 256) = parts.map ok) (hnd : parts.flatten.Nodup) (hroot : v.fsRoot ∉ parts.flatten) (hlen : capacity ≤ parts.flatten.length) :
    (enumerate k p v xid i empty).1 = ub := by
  unfold enumerate
  rw [bind_ok (getRoot_empty h0 hp hn)]
  dsimp only
  unfold enumNode
  rw [bind_ok (deref_ok (by simp))]
  dsimp only
  rw [if_neg (by rw [hl]; simp)]
  refine enumBranch_freed (capacity := capacity) (pvisit := loadsBelow k v xid i 256) ?_ n.entries none front last parts { slots := [⟨v.fsRoot, 0, n⟩], next := 1 } [v.fsRoot] hf hparts ?_ hnd
    (fun b hb h => hroot (List.mem_singleton.1 h ▸ hb)) (by dsimp only; omega)
  · intro value L hL
    obtain ⟨b, h1, hL⟩ := bind_eq_ok.1 hL
    obtain ⟨m, h2, hL⟩ := bind_eq_ok.1 hL
    obtain ⟨l, h3, hL⟩ := bind_eq_ok.1 hL
    cases Res.ok.inj hL
    rw [h1, pureRes_ok]
    exact getSub_fresh h0 hp h2 fun t ht => enumNode_fresh h0 hp 256 t l (ht ▸ h3)
  · exact ⟨rfl, by dsimp only [List.length_singleton]; exact h0, Nat.le_refl 1, by simp⟩

/-- if all entries but the first have the identifier and type then all children are visited -/
theorem enumBranch_all {α : Type} {k : Kind α} (hb : ∀ key, k.before key = ok true) {i : Nat} {visit : Bytes → Res (List α)} (es : List Entry)
    (hes : ∀ e ∈ es, 8 ≤ e.1.length ∧ fsId e.1 = i ∧ fsType e.1 = k.dataType) : ∀ (q : Entry) (Ls : List (List α)), (q :: es).map (fun e => visit e.2) = Ls.map ok →
    FsTree.enumBranch k visit i es (some q) = ok Ls.flatten := by
  induction es with
  | nil =>
    intro q Ls h
    match Ls, h with
    | [], h => simp at h
    | _ :: _ :: _, h => simp at h
    | [L], h =>
      have : visit q.2 = ok L := by simpa using h
      unfold FsTree.enumBranch
      rw [this]
      simp
  | cons e es ih =>
    intro q Ls h
    obtain ⟨h1, h2, h3⟩ := hes e (by simp)
    match Ls, h with
    | [], h => simp at h
    | L :: Ls, h =>
      simp only [List.map_cons, List.cons.injEq] at h
      unfold FsTree.enumBranch
      rw [require_true (by omega), ok_bind, rdLE_field (by omega), ok_bind]
      unfold fsId at h2
      unfold fsType at h3
      rw [if_neg (by rw [h2, h3]; omega), if_pos ⟨h2, h3⟩, hb, ok_bind]
      dsimp only
      rw [h.1, ok_bind, ih (fun x hx => hes x (by simp [hx])) e Ls (by simpa using h.2), ok_bind]
      rfl

theorem enumBranch_start {α : Type} {k : Kind α} (hb : ∀ key, k.before key = ok true) {i : Nat} {visit : Bytes → Res (List α)} {q : Entry} {es : List Entry} (hl : 8 ≤ q.1.length)
    (hq : ¬ fsOver i k.dataType q.1) (hes : ∀ e ∈ es, 8 ≤ e.1.length ∧ fsId e.1 = i ∧ fsType e.1 = k.dataType) {Ls : List (List α)} (h : (q :: es).map (fun e => visit e.2) = Ls.map ok) :
    FsTree.enumBranch k visit i (q :: es) none = ok Ls.flatten := by
  unfold FsTree.enumBranch
  rw [require_true (by omega), ok_bind, rdLE_field (by omega), ok_bind, if_neg (mt fsOver_iff.1 hq)]
  have : ∀ c : Prop, [Decidable c] → ∃ b, (if c then k.before q.1 else return false) = ok b := by
    intro c _
    split
    · exact ⟨true, hb _⟩
    · exact ⟨false, rfl⟩
  obtain ⟨b, hb'⟩ := this (field q.1 0 8 % 2 ^ 60 = i ∧ field q.1 0 8 / 2 ^ 60 = k.dataType)
  rw [hb', ok_bind]
  cases b <;> (dsimp only; rw [show (return [] : Res (List α)) = ok [] from rfl, ok_bind, enumBranch_all hb es hes q Ls h]; rfl)

end NodeCache

namespace WideExample
open NodeCache NodeImage

def kind : Kind Records.DirectoryRecord := directoryKind Records.readDirectoryRecord

/-- the file in a directory record -/
def file (n : Nat) : Records.DirectoryRecord :=
  { name := [UInt8.ofNat (48 + n / 1000), UInt8.ofNat (48 + n / 100 % 10), UInt8.ofNat (48 + n / 10 % 10), UInt8.ofNat (48 + n % 10), 0], hash := 0, identifier := 100 + n, added := 0 }

theorem decode_record {n : Nat} (h : n < 10000) : kind.decode (record n) = ok (file n) := by
  show Records.readDirectoryRecord (record n) = _
  unfold Records.readDirectoryRecord record
  dsimp only
  rw [Records.readDirectoryKey_plain (by simp) (by simp), ok_bind]
  dsimp only
  rw [Records.readDirectoryValue_ok (by omega) (by omega) (by simp) (by simp [drecValue, optionalFields]), ok_bind]
  rfl

theorem recordsOf_leaf (n : Nat) : recordsOf (leafEntries n) 2 9 = [record n] := by
  have hi : ¬ (fsId inode.1 = 2 ∧ fsType inode.1 = 9) := by decide +kernel
  have hr := record_key n
  unfold leafEntries recordsOf
  split
  · next h =>
    subst h
    rw [List.filter_cons_of_neg (by simpa using (show ¬ IsOf 2 9 inode from hi)), List.filter_cons_of_pos (by simp [IsOf, hr.1, hr.2.1])]
    rfl
  · rw [List.filter_cons_of_pos (by simp [IsOf, hr.1, hr.2.1])]
    rfl

theorem enumLeaf_leaf {n : Nat} (h : n < 10000) : enumLeaf kind 2 (leafEntries n) = ok [file n] := by
  rw [enumLeaf_spec (k := kind) (by decide) (by decide) (fun r hr => ((leaf_sorted n).2.1 r hr).2.1) (leaf_sorted n).1]
  show readAll kind.decode (recordsOf (leafEntries n) 2 9) = _
  rw [recordsOf_leaf]
  unfold readAll
  rw [decode_record h]
  rfl

theorem fsSub_wide {value : Bytes} {t : TNode} (h : FsChild storage mappings 1 value t) :
    ∃ b m, blockOf (volumeOf storage) 1 value = ok b ∧ fsSubNode (volumeOf storage) b = ok m ∧ view m = t := by
  obtain ⟨m, h1, h2⟩ := fsSub_ok map_tree value t h
  rw [fsSub_eq] at h1
  obtain ⟨b, h3, h4⟩ := bind_eq_ok.1 h1
  exact ⟨b, m, h3, h4, h2⟩

theorem blockOf_wide {t : Nat} (ht : t < 10100) : blockOf (volumeOf storage) 1 (toLE 8 (2000 + t)) = ok (2000 + t) := by
  have hf : field (toLE 8 (2000 + t)) 0 8 = 2000 + t := field_value (by omega)
  obtain ⟨desc, h1, h2⟩ := omDescriptor_ok map_tree (oid := 2000 + t) (xid := 1) (by omega) (newest ht)
  unfold blockOf
  rw [require_true (by simp), ok_bind, rdLE_field (by simp), ok_bind, hf]
  show (omDescriptor (fetchOf image) 1 (2000 + t) 1 >>= _) = _
  rw [h1, ok_bind]
  dsimp only
  rw [h2, mapping_block (by omega)]
  rfl

theorem loadsBelow_leaf {n : Nat} (h : n < 10000) : loadsBelow kind (volumeOf storage) 1 2 255 (toLE 8 (2100 + n)) = ok [2100 + n] := by
  obtain ⟨b, m, h1, h2, h3⟩ := fsSub_wide (fsChild_leaf h)
  have hb := blockOf_wide (t := 100 + n) (by omega)
  rw [show 2000 + (100 + n) = 2100 + n by omega] at hb
  rw [hb] at h1
  cases Res.ok.inj h1
  unfold loadsBelow
  rw [hb, ok_bind, h2, ok_bind]
  rw [nodeOf_bytes (leaf_fits n)] at h3
  have hl : m.leaf = true := congrArg TNode.leaf h3
  have he : m.entries = leafEntries n := congrArg TNode.entries h3
  unfold loads
  rw [if_pos hl, he, enumLeaf_leaf h]
  rfl

theorem firstKey_exact {n : Nat} (h : n ≠ 0) : 8 ≤ (firstKey n).length ∧ fsId (firstKey n) = 2 ∧ fsType (firstKey n) = 9 :=
  ⟨(length_firstKey n).2, fsId_firstKey n, by rw [fsType_firstKey, if_neg h]⟩

theorem firstKey_first (n : Nat) : ¬ fsOver 2 9 (firstKey n) := by
  unfold fsOver
  rw [fsId_firstKey, fsType_firstKey]
  split <;> omega

theorem range_100 : List.range 100 = 0 :: (List.range 99).map (· + 1) := by decide

theorem flatten_singletons {β : Type} (l : List β) : (l.map fun x => [x]).flatten = l := by
  induction l with
  | nil => rfl
  | cons x l ih => simp [ih]

/-- the leaf blocks below branch node `j` -/
def leafBlocks (j : Nat) : List Nat := (List.range 100).map fun k => 2100 + (100 * j + k)

theorem loadsBelow_branch {j : Nat} (h : j < 100) : loadsBelow kind (volumeOf storage) 1 2 256 (toLE 8 (2000 + j)) = ok ((2000 + j) :: leafBlocks j) := by
  obtain ⟨b, m, h1, h2, h3⟩ := fsSub_wide (fsChild_branch h)
  have hb := blockOf_wide (t := j) (by omega)
  rw [hb] at h1
  cases Res.ok.inj h1
  unfold loadsBelow
  rw [hb, ok_bind, h2, ok_bind]
  rw [nodeOf_bytes (branch_fits j)] at h3
  have hl : m.leaf = false := congrArg TNode.leaf h3
  have he : m.entries = branchEntries j := congrArg TNode.entries h3
  have : loads kind (volumeOf storage) 1 2 256 m = ok (leafBlocks j) := by
    unfold loads
    rw [if_neg (by rw [hl]; simp), he]
    have hmap : (branchEntries j).map (fun e => loadsBelow kind (volumeOf storage) 1 2 255 e.2) = ((leafBlocks j).map fun x => [x]).map ok := by
      unfold branchEntries leafBlocks
      rw [List.map_map, List.map_map, List.map_map]
      refine List.map_congr_left fun k hk => ?_
      have hk := List.mem_range.1 hk
      exact loadsBelow_leaf (n := 100 * j + k) (by omega)
    have hes : branchEntries j = (firstKey (100 * j + 0), toLE 8 (2100 + (100 * j + 0))) :: ((List.range 99).map fun k => (firstKey (100 * j + (k + 1)), toLE 8 (2100 + (100 * j + (k + 1))))) := by
      unfold branchEntries
      rw [range_100, List.map_cons, List.map_map]
      rfl
    rw [hes] at hmap ⊢
    rw [← flatten_singletons (leafBlocks j)]
    refine enumBranch_start (k := { dataType := kind.dataType, decode := fun _ => ok 0, before := kind.before }) (fun _ => rfl) (visit := loadsBelow kind (volumeOf storage) 1 2 255) (length_firstKey _).2 (firstKey_first _) ?_ hmap
    intro e he
    obtain ⟨k, hk, rfl⟩ := List.mem_map.1 he
    exact firstKey_exact (n := 100 * j + (k + 1)) (by omega)
  rw [this]
  rfl

theorem visits_root : visits kind 2 rootEntries none = ok ((List.range 99).map (fun j => toLE 8 (2000 + j)) ++ [toLE 8 2099]) := by
  have hes : rootEntries = (firstKey (100 * 0), toLE 8 (2000 + 0)) :: ((List.range 99).map fun j => (firstKey (100 * (j + 1)), toLE 8 (2000 + (j + 1)))) := by
    unfold rootEntries
    rw [range_100, List.map_cons, List.map_map]
    rfl
  have hall : (List.range 99).map (fun j => toLE 8 (2000 + j)) ++ [toLE 8 2099] = rootEntries.map (·.2) := by
    unfold rootEntries
    rw [List.map_map, List.range_succ, List.map_append]
    rfl
  rw [hall, ← flatten_singletons (rootEntries.map (·.2))]
  unfold visits
  have hmap : rootEntries.map (fun e => (ok [e.2] : Res (List Bytes))) = ((rootEntries.map (·.2)).map fun x => [x]).map ok := by
    rw [List.map_map, List.map_map]
    rfl
  generalize (rootEntries.map (·.2)).map (fun x => [x]) = Ls at hmap
  rw [hes] at hmap ⊢
  refine enumBranch_start (k := { dataType := kind.dataType, decode := fun _ => ok [], before := kind.before }) (fun _ => rfl) (visit := fun value => ok [value]) (length_firstKey (100 * 0)).2 (show ¬ fsOver 2 9 (firstKey (100 * 0)) from firstKey_first _) ?_ hmap
  intro e he
  obtain ⟨j, hj, rfl⟩ := List.mem_map.1 he
  exact firstKey_exact (n := 100 * (j + 1)) (by omega)

def parts : List (List Nat) := (List.range 99).map fun j => (2000 + j) :: leafBlocks j

theorem mem_leafBlocks {j x : Nat} (h : x ∈ leafBlocks j) : 2100 + 100 * j ≤ x ∧ x < 2200 + 100 * j := by
  obtain ⟨k, hk, rfl⟩ := List.mem_map.1 h
  have := List.mem_range.1 hk
  omega

theorem length_parts : parts.flatten.length = 9999 := by
  have : ∀ l : List Nat, (l.map fun j => (2000 + j) :: leafBlocks j).flatten.length = 101 * l.length := by
    intro l
    induction l with
    | nil => rfl
    | cons j l ih =>
      rw [List.map_cons, List.flatten_cons, List.length_append, ih, List.length_cons, List.length_cons, leafBlocks, List.length_map, List.length_range]
      omega
  unfold parts
  rw [this, List.length_range]

theorem nodup_parts : parts.flatten.Nodup ∧ 1000 ∉ parts.flatten := by
  constructor
  · unfold List.Nodup parts
    rw [List.pairwise_flatten]
    refine ⟨?_, ?_⟩
    · intro l hl
      obtain ⟨j, hj, rfl⟩ := List.mem_map.1 hl
      have hj := List.mem_range.1 hj
      refine List.pairwise_cons.2 ⟨fun x hx => ?_, ?_⟩
      · have := mem_leafBlocks hx
        omega
      · unfold leafBlocks
        rw [List.pairwise_map]
        refine List.Pairwise.imp ?_ List.pairwise_lt_range
        intro a b hab
        omega
    · rw [List.pairwise_map]
      refine List.Pairwise.imp_of_mem ?_ List.pairwise_lt_range
      intro a b ha hb hab x hx y hy
      have ha := List.mem_range.1 ha
      have hb := List.mem_range.1 hb
      rcases List.mem_cons.1 hx with rfl | hx <;> rcases List.mem_cons.1 hy with rfl | hy
      · omega
      · have := mem_leafBlocks hy
        omega
      · have := mem_leafBlocks hx
        omega
      · have := mem_leafBlocks hx
        have := mem_leafBlocks hy
        omega
  · intro h
    obtain ⟨l, hl, h⟩ := List.mem_flatten.1 h
    obtain ⟨j, hj, rfl⟩ := List.mem_map.1 hl
    rcases List.mem_cons.1 h with h | h
    · omega
    · have := mem_leafBlocks h
      omega

theorem root_node : ∃ n, fsRootNode (volumeOf storage) = ok (some n) ∧ n.leaf = false ∧ n.entries = rootEntries := by
  refine ⟨_, fsRootNode_ok (s := storage) fsRoot, ?_⟩
  have h := view_parsed (rootForm.bytes rootEntries)
  rw [nodeOf_bytes root_fits] at h
  exact ⟨congrArg TNode.leaf h, congrArg TNode.entries h⟩

/-- with a cache of up to 9999 entries the root node is freed before the last child is reached -/
theorem freed {p : Policy} {capacity : Nat} (h0 : 0 < capacity) (hc : capacity ≤ 9999) (hp : OldestFirst p capacity) : (NodeCache.enumerate kind p (volumeOf storage) 1 2 empty).1 = ub := by
  obtain ⟨n, h1, h2, h3⟩ := root_node
  refine enumerate_freed h0 hp h1 h2 (front := (List.range 99).map (fun j => toLE 8 (2000 + j))) (last := toLE 8 2099) (by rw [h3]; exact visits_root) (parts := parts) ?_ nodup_parts.1 nodup_parts.2
    (by rw [length_parts]; exact hc)
  unfold parts
  rw [List.map_map, List.map_map]
  refine List.map_congr_left fun j hj => ?_
  have hj := List.mem_range.1 hj
  exact loadsBelow_branch (by omega)

/-- all files -/
def files : List Records.DirectoryRecord := ((List.range 100).map fun j => ((List.range 100).map fun k => file (100 * j + k))).flatten

theorem recordsOf_flatten (l : List (List Record)) (i t : Nat) : recordsOf l.flatten i t = (l.map fun x => recordsOf x i t).flatten := by
  unfold recordsOf
  rw [List.filter_flatten]

theorem readAll_flatten {α : Type} {decode : Entry → Res α} : ∀ {l : List (List Entry)} {m : List (List α)}, l.map (readAll decode) = m.map ok → readAll decode l.flatten = ok m.flatten
  | [], [], _ => rfl
  | [], _ :: _, h => by simp at h
  | _ :: _, [], h => by simp at h
  | x :: l, y :: m, h => by
    simp only [List.map_cons, List.cons.injEq] at h
    rw [List.flatten_cons, List.flatten_cons, readAll_append, h.1, ok_bind, readAll_flatten h.2]
    rfl

/-- without the cache all files are listed -/
theorem listing : FsTree.enumerate kind (volumeOf storage) 1 2 = ok files := by
  have hfirst : ∀ r ∈ records.head?, ¬ fsOver 2 kind.dataType r.1 := by
    intro r hr
    obtain ⟨l, hl, hr⟩ := List.mem_flatten.1 (List.mem_of_mem_head? hr)
    obtain ⟨j, hj, rfl⟩ := List.mem_map.1 hl
    obtain ⟨l, hl, hr⟩ := List.mem_flatten.1 hr
    obtain ⟨k, hk, rfl⟩ := List.mem_map.1 hl
    have h1 := ((leaf_sorted _).2.1 r hr).1
    have h2 := (leaf_sorted _).2.2 r hr
    show ¬ (fsId r.1 > 2 ∨ (fsId r.1 = 2 ∧ fsType r.1 > 9))
    omega
  rw [enumerate_spec (k := kind) (i := 2) (by decide) (by decide) holds ⟨fun _ _ _ => ⟨true, rfl⟩, List.pairwise_of_forall fun _ _ _ _ => rfl⟩ hfirst]
  show readAll kind.decode (recordsOf records 2 9) = _
  unfold records files
  rw [recordsOf_flatten, List.map_map]
  refine readAll_flatten ?_
  rw [List.map_map, List.map_map]
  refine List.map_congr_left fun j hj => ?_
  have hj := List.mem_range.1 hj
  show readAll kind.decode (recordsOf (branchRecords j) 2 9) = ok ((List.range 100).map fun k => file (100 * j + k))
  unfold branchRecords
  rw [recordsOf_flatten, List.map_map, ← flatten_singletons ((List.range 100).map fun k => file (100 * j + k))]
  refine readAll_flatten ?_
  rw [List.map_map, List.map_map, List.map_map]
  refine List.map_congr_left fun k hk => ?_
  have hk := List.mem_range.1 hk
  show readAll kind.decode (recordsOf (leafEntries (100 * j + k)) 2 9) = ok [file (100 * j + k)]
  rw [recordsOf_leaf]
  unfold readAll
  rw [decode_record (by omega)]
  rfl

theorem length_files : files.length = 10000 := by
  have : ∀ l : List Nat, (l.map fun j => (List.range 100).map fun k => file (100 * j + k)).flatten.length = 100 * l.length := by
    intro l
    induction l with
    | nil => rfl
    | cons j l ih =>
      rw [List.map_cons, List.flatten_cons, List.length_append, ih, List.length_cons, List.length_map, List.length_range]
      omega
  unfold files
  rw [this, List.length_range]

end WideExample
end Verif
