import Verif.Model.Snapshot
import Verif.Spec.Snapshot
import Verif.Lemmas.FsTree
import Verif.Lemmas.Records
import Verif.Lemmas.Walk
/-! Lemmas about the snapshot metadata tree -/
namespace Verif
open Res Spec
namespace Snapshot
open BTree FsTree

/-! values -/

theorem readValue_encode (v : SnapValue) (hn : v.name ≠ []) (hl : v.name.length < 65536) :
    readValue v.encode = ok { superblock := v.superblock % 2 ^ 32, name := v.name } := by
  have hlen : v.encode.length = 50 + v.name.length := by
    unfold SnapValue.encode
    simp only [List.length_append, length_toLE]
    omega
  have h0 : 0 < v.name.length := List.length_pos_iff.2 hn
  have hsb : field v.encode 8 4 = v.superblock % 2 ^ 32 := by
    have e : v.encode = toLE 8 v.extents ++ (toLE 8 v.superblock ++ (v.encode.drop 16)) := by
      unfold SnapValue.encode
      rw [← List.append_assoc, ← List.append_assoc (toLE 8 v.extents), List.drop_append_of_le_length (by simp only [List.length_append, length_toLE]; omega),
        List.drop_of_length_le (by simp only [List.length_append, length_toLE]; omega)]
      simp
    rw [e]
    unfold field slice
    rw [List.drop_append_of_le_length (by rw [length_toLE]; omega), List.drop_of_length_le (by rw [length_toLE]; omega), List.nil_append]
    rw [List.take_append_of_le_length (by rw [length_toLE]; omega)]
    have : (toLE 8 v.superblock).take 4 = toLE 4 (v.superblock % 2 ^ 32) := by
      have e2 : toLE 4 (v.superblock % 2 ^ 32) = toLE 4 v.superblock := by
        have a1 : v.superblock % 2 ^ 32 % 256 = v.superblock % 256 := by omega
        have a2 : v.superblock % 2 ^ 32 / 256 % 256 = v.superblock / 256 % 256 := by omega
        have a3 : v.superblock % 2 ^ 32 / 256 / 256 % 256 = v.superblock / 256 / 256 % 256 := by omega
        have a4 : v.superblock % 2 ^ 32 / 256 / 256 / 256 % 256 = v.superblock / 256 / 256 / 256 % 256 := by omega
        simp only [toLE, a1, a2, a3, a4]
      rw [e2]
      rfl
    rw [this, leNat_toLE _ _ (by omega)]
  have hpre : ∃ pre : Bytes, pre.length = 48 ∧ v.encode = pre ++ (toLE 2 v.name.length ++ v.name) := by
    refine ⟨toLE 8 v.extents ++ (toLE 8 v.superblock ++ (toLE 8 v.created ++ (toLE 8 v.changed ++ (toLE 8 v.inum ++ (toLE 4 v.extentsType ++ toLE 4 v.flags))))), ?_, ?_⟩
    · simp only [List.length_append, length_toLE]
    · unfold SnapValue.encode
      simp only [List.append_assoc]
  obtain ⟨pre, hp, he⟩ := hpre
  have hns : field v.encode 48 2 = v.name.length := by
    rw [he]
    unfold field slice
    rw [List.drop_append_of_le_length (by omega), List.drop_of_length_le (by omega), List.nil_append,
      List.take_append_of_le_length (by rw [length_toLE]; omega), List.take_of_length_le (by rw [length_toLE]; omega), leNat_toLE _ _ (by omega)]
  have hname : slice v.encode 50 v.name.length = v.name := by
    rw [he, ← List.append_assoc]
    unfold slice
    rw [List.drop_append_of_le_length (by simp only [List.length_append, length_toLE]; omega), List.drop_of_length_le (by simp only [List.length_append, length_toLE]; omega),
      List.nil_append, List.take_length]
  unfold readValue
  rw [require_true (by omega), ok_bind, rdLE_field (by omega), ok_bind, rdLE_field (by omega), ok_bind, hns, require_true (by omega), ok_bind,
    rdN_slice (by omega), ok_bind, hsb, hname]
  rfl

theorem readValue_safe (d : Bytes) : Safe (readValue d) := by
  unfold readValue
  refine safe_bind safe_require fun _ h => ?_
  rw [require_eq_ok _] at h
  rw [rdLE_field (by omega), ok_bind, rdLE_field (by omega), ok_bind]
  refine safe_bind safe_require fun _ h2 => ?_
  rw [require_eq_ok _] at h2
  rw [rdN_slice (by omega), ok_bind]
  exact safe_ok _

theorem readEntry_safe (e : Entry) : Safe (readEntry e) := by
  unfold readEntry
  exact safe_bind safe_require fun _ _ => readValue_safe _

/-! names -/

theorem readStream_ok {mem : Bytes} {size off : Nat} (h1 : (cstring (mem.drop off)).length < size) (h2 : (0 : UInt8) ∈ mem.drop off) :
    readStream mem size off = ok (cstring (mem.drop off)) := by
  induction size generalizing off with
  | zero => omega
  | succ size ih =>
    have hlt : off < mem.length := by
      refine Classical.byContradiction fun h => ?_
      rw [List.drop_of_length_le (by omega)] at h2
      cases h2
    rw [List.drop_eq_getElem_cons hlt] at h1 h2 ⊢
    unfold readStream
    rw [rd_lt hlt, ok_bind]
    by_cases hz : mem[off] = 0
    · rw [if_pos hz]
      unfold cstring
      rw [List.takeWhile_cons_of_neg (by simp [hz])]
      rfl
    · rw [if_neg hz]
      unfold cstring at h1 ⊢
      rw [List.takeWhile_cons_of_pos (by simp [hz])] at h1 ⊢
      rw [ih (by simpa [cstring] using h1) (by
        rcases List.mem_cons.1 h2 with h | h
        · exact absurd h.symm hz
        · exact h), ok_bind]
      rfl

theorem readStream_ub {mem : Bytes} {size off : Nat} (h1 : mem.length < off + size) (h2 : (0 : UInt8) ∉ mem.drop off) : readStream mem size off = ub ∨ mem.length < off := by
  induction size generalizing off with
  | zero => exact .inr (by omega)
  | succ size ih =>
    by_cases hlt : off < mem.length
    · rw [List.drop_eq_getElem_cons hlt] at h2
      simp only [List.mem_cons, not_or] at h2
      unfold readStream
      rw [rd_lt hlt, ok_bind, if_neg (fun h => h2.1 h.symm)]
      rcases ih (off := off + 1) (by omega) h2.2 with h | h
      · rw [h]; exact .inl rfl
      · omega
    · refine (Nat.lt_or_ge mem.length off).elim .inr fun h => .inl ?_
      unfold readStream
      rw [rd_ge (by omega)]
      rfl

theorem readStream_take {mem : Bytes} {size off : Nat} (h1 : off + size ≤ mem.length) (h2 : (0 : UInt8) ∉ (mem.drop off).take size) :
    readStream mem size off = ok ((mem.drop off).take size) := by
  induction size generalizing off with
  | zero => simp [readStream]
  | succ size ih =>
    have hlt : off < mem.length := by omega
    rw [List.drop_eq_getElem_cons hlt, List.take_succ_cons] at h2 ⊢
    simp only [List.mem_cons, not_or] at h2
    unfold readStream
    rw [rd_lt hlt, ok_bind, if_neg (fun h => h2.1 h.symm), ih (by omega) h2.2, ok_bind]
    rfl

/-! nodes -/

/-- a tree as stored -/
def treeOf (s : SnapStorage) : Tree := { omFetch := fetchOf s.omImage, omRoot := s.omRoot, fetch := fetchOf s.image, root := s.root }

theorem rootNode_ok {s : SnapStorage} {d : Bytes} (h : SnapRoot s.image s.root d) : rootNode (treeOf s) = ok (parsed d) := by
  unfold rootNode treeOf
  simp only
  rw [require_true (by have := h.range; omega), ok_bind]
  unfold fetchOf
  rw [h.stored]
  simp only [ok_bind]
  rw [readNode_valid h.valid, ok_bind]
  unfold parsed
  simp only
  rw [require_true h.type, ok_bind, require_true h.subtype, ok_bind, require_true (by have h1 := root_iff.1 h.root; omega), ok_bind]
  have hfo := h.footer
  unfold footerFields at hfo
  simp only [Prod.mk.injEq] at hfo
  have : footerOf d = some { nodeSize := 4096, keySize := 0, valueSize := 0 } := by
    unfold footerOf
    rw [if_pos (root_iff.1 h.root), hfo.1, hfo.2.1, hfo.2.2]
  rw [this]
  simp only
  rw [require_true trivial]
  rfl

theorem subNode_ok {s : SnapStorage} {block : Nat} {d : Bytes} (hd : SnapNode s.image block d) : subNode (treeOf s) block = ok (parsed d) := by
  unfold subNode treeOf
  rw [require_true (by have := hd.range; omega), ok_bind]
  simp only
  unfold fetchOf
  rw [hd.stored]
  simp only [ok_bind]
  rw [readNode_valid hd.valid, ok_bind]
  unfold parsed
  simp only
  have hnr : ¬ BNode.flags d % 2 ≠ 0 := fun hf => by have := root_iff.2 hf; rw [hd.root] at this; cases this
  rw [require_true hd.type, ok_bind, require_true hd.subtype, ok_bind, require_true (by omega), ok_bind]
  rfl

theorem descriptor_newest {image : Nat → Option Bytes} {block : Nat} {mappings : List Record} (hm : OmTree image block mappings) {oid xid : Nat} (h0 : oid ≠ 0)
    {r : Record} (hr : Newest mappings oid xid r) : ∃ desc, omDescriptor (fetchOf image) block oid xid = ok (some desc) ∧ desc.physical = field r.2 8 8 := by
  have hlen := omTree_lengths hm
  rcases omLookup_spec hm h0 (xid := xid) with ⟨h1, _⟩ | ⟨q, h1, h2⟩
  · exact absurd ⟨r, hr.1, hr.2.1, hr.2.2.1⟩ h1
  · have hq : q = r := by
      have ha := hr.2.2.2 q h1.1 h1.2.1 h1.2.2.1
      have hb := h1.2.2.2 r hr.1 hr.2.1 hr.2.2.1
      have hp := hm.2
      unfold Ascending at hp
      refine Classical.byContradiction fun hne => ?_
      have := List.Pairwise.forall_of_forall_of_flip (R := fun a b : Record => a = b ∨ omLt a.1 b.1 ∨ omLt b.1 a.1) (l := mappings) (fun _ _ => .inl rfl)
        (hp.imp (fun h => .inr (.inl h))) (hp.imp (fun h => .inr (.inr h))) h1.1 hr.1
      have g1 := h1.2.1
      have g2 := hr.2.1
      rcases this with h | h | h
      · exact hne h
      · unfold omLt at h; omega
      · unfold omLt at h; omega
    subst hq
    obtain ⟨hk, hv⟩ := hlen q h1.1
    unfold omDescriptor
    rw [h2, ok_bind]
    simp only
    rw [require_true (by omega), ok_bind, rdLE_field (by omega), ok_bind, rdLE_field (by omega), ok_bind, require_true (by omega), ok_bind,
      rdLE_field (by omega), ok_bind, rdLE_field (by omega), ok_bind, rdLE_field (by omega), ok_bind]
    exact ⟨_, rfl, rfl⟩

theorem descriptor_none {image : Nat → Option Bytes} {block : Nat} {mappings : List Record} (hm : OmTree image block mappings) {oid xid : Nat} (h0 : oid ≠ 0)
    (hr : ¬ HasVersion mappings oid xid) : omDescriptor (fetchOf image) block oid xid = ok none := by
  rcases omLookup_spec hm h0 (xid := xid) with ⟨_, h2⟩ | ⟨q, h1, _⟩
  · unfold omDescriptor
    rw [h2, ok_bind]
    rfl
  · exact absurd ⟨q, h1.1, h1.2.1, h1.2.2.1⟩ hr

theorem mappedSub_ok {s : SnapStorage} {mappings : List Record} (hm : OmTree s.omImage s.omRoot mappings) {xid : Nat} (v : Bytes) (t : TNode)
    (h : SnapMapped s mappings xid v t) : ∃ m, mappedSub (treeOf s) xid v = ok m ∧ view m = t := by
  obtain ⟨hl, h0, r, hr, d, hd, rfl⟩ := h
  refine ⟨parsed d, ?_, view_parsed d⟩
  unfold mappedSub
  rw [require_true hl, ok_bind, rdLE_field (by omega), ok_bind]
  obtain ⟨desc, e1, e2⟩ := descriptor_newest hm h0 hr
  have e1' : omDescriptor (treeOf s).omFetch (treeOf s).omRoot (field v 0 8) xid = ok (some desc) := e1
  rw [e1', ok_bind]
  simp only
  rw [e2]
  exact subNode_ok hd

/-! enumeration -/

theorem field_type {k : Bytes} : field k 0 8 / 2 ^ 60 = fsType k := rfl

/-- records behind one that is no snapshot are no snapshots -/
theorem tail_none {r : Record} {rs : List Record} (h : SnapRecords (r :: rs)) (ht : fsType r.1 > 1) : snapshotRecords (r :: rs) = [] := by
  unfold snapshotRecords
  rw [List.filter_eq_nil_iff]
  intro x hx
  simp only [decide_eq_true_eq]
  rcases List.mem_cons.1 hx with rfl | hx'
  · omega
  · have h1 := (List.pairwise_cons.1 h.sorted).1 x hx'
    have h2 := h.types r (by simp)
    have h3 := h.types x hx
    unfold fsLe at h1
    omega

theorem SnapRecords.right {a b : List Record} (h : SnapRecords (a ++ b)) : SnapRecords b :=
  ⟨fun r hr => h.keys r (by simp [hr]), (List.pairwise_append.1 h.sorted).2.1, fun r hr => h.types r (by simp [hr])⟩

theorem SnapRecords.left {a b : List Record} (h : SnapRecords (a ++ b)) : SnapRecords a :=
  ⟨fun r hr => h.keys r (by simp [hr]), (List.pairwise_append.1 h.sorted).1, fun r hr => h.types r (by simp [hr])⟩

theorem snapshotRecords_append (a b : List Record) : snapshotRecords (a ++ b) = snapshotRecords a ++ snapshotRecords b := List.filter_append ..

theorem enumLeaf_spec {rs : List Record} (h : SnapRecords rs) : enumLeaf rs = readAll readEntry (snapshotRecords rs) := by
  induction rs with
  | nil => rfl
  | cons r rs ih =>
    have hk := h.keys r (by simp)
    unfold enumLeaf
    rw [require_true (by omega), ok_bind, rdLE_field (by omega), ok_bind, field_type]
    by_cases ht : fsType r.1 > 1
    · rw [if_pos ht, tail_none h ht]
      rfl
    · rw [if_neg ht]
      have h1 : fsType r.1 = 1 := by have := h.types r (by simp); omega
      have : snapshotRecords (r :: rs) = r :: snapshotRecords rs := by
        unfold snapshotRecords
        rw [List.filter_cons_of_pos (by simpa using h1)]
      rw [this, ih (SnapRecords.right (a := [r]) h)]
      rfl

theorem enumBranch_spec {visit : Bytes → Res (List Metadata)} {cs : List Child} (hv : ∀ c ∈ cs, visit c.value = readAll readEntry (snapshotRecords c.records))
    (hf : ∀ c ∈ cs, FirstKey c) (h : SnapRecords (allRecords cs)) :
    enumBranch visit (cs.map (fun c => (c.key, c.value))) = readAll readEntry (snapshotRecords (allRecords cs)) := by
  induction cs with
  | nil => rfl
  | cons c cs ih =>
    obtain ⟨r, t, f1, f2⟩ := hf c (by simp)
    rw [List.map_cons]
    rw [allRecords_cons] at h ⊢
    have hk := h.keys r (by simp [f1])
    rw [f2] at hk
    unfold enumBranch
    simp only
    rw [require_true (by omega), ok_bind, rdLE_field (by omega), ok_bind, field_type]
    by_cases ht : fsType c.key > 1
    · rw [if_pos ht]
      rw [f1, List.cons_append] at h
      rw [f1, List.cons_append, tail_none h (by rw [f2]; exact ht)]
      rfl
    · rw [if_neg ht, hv c (by simp), snapshotRecords_append, readAll_append, ih (fun x hx => hv x (by simp [hx])) (fun x hx => hf x (by simp [hx])) (SnapRecords.right h)]

theorem enumNode_spec {sub : Bytes → Res Node} {rel : Bytes → TNode → Prop}
    (hsubs : ∀ v t, rel v t → ∃ m, sub v = ok m ∧ view m = t) {depth : Nat} {n : Node} {rs : List Record} (h : IsTree rel depth (view n) rs) (hr : SnapRecords rs) :
    enumNode sub depth n = readAll readEntry (snapshotRecords rs) := by
  induction depth generalizing n rs with
  | zero => exact absurd h (by unfold IsTree; exact id)
  | succ depth ih =>
    unfold IsTree at h
    unfold enumNode
    rcases h with ⟨hl, he⟩ | ⟨hl, cs, hne, he, hrs, hc⟩
    · have hl : n.leaf = true := hl
      have he : n.entries = rs := he
      rw [if_pos hl, he]
      exact enumLeaf_spec hr
    · have hl : n.leaf = false := hl
      have he : n.entries = cs.map (fun c => (c.key, c.value)) := he
      have hd : depth ≠ 0 := by
        rintro rfl
        obtain ⟨c, hcs⟩ := List.exists_mem_of_ne_nil cs hne
        exact absurd (hc c hcs).2.1 (by unfold IsTree; exact id)
      rw [if_neg (by simp [hl]), if_neg hd, he]
      have hrs : rs = allRecords cs := hrs
      subst hrs
      refine enumBranch_spec ?_ (fun x hx => firstKey_of (hc x hx).2.2) hr
      intro x hx
      obtain ⟨m, m1, m2⟩ := hsubs _ _ (hc x hx).1
      simp only [m1, ok_bind]
      obtain ⟨a, b, hab⟩ := List.append_of_mem hx
      have hsplit : allRecords cs = allRecords a ++ (x.records ++ allRecords b) := by
        rw [hab]
        unfold allRecords
        simp
      rw [hsplit] at hr
      exact ih (by rw [m2]; exact (hc x hx).2.1) (SnapRecords.left (SnapRecords.right hr))

/-! safety -/

theorem safe_subNode {t : Tree} (hf : ∀ b, Safe (t.fetch b)) (block : Nat) : Safe (subNode t block) := by
  unfold subNode
  exact safe_bind safe_require fun _ _ => safe_bind (hf _) fun d _ => safe_bind (readNode_spec d).1 fun _ _ => safe_bind safe_require fun _ _ =>
    safe_bind safe_require fun _ _ => safe_bind safe_require fun _ _ => safe_ok _

theorem safe_mappedSub {t : Tree} (ho : ∀ b, Safe (t.omFetch b)) (hf : ∀ b, Safe (t.fetch b)) (xid : Nat) (value : Bytes) : Safe (mappedSub t xid value) := by
  unfold mappedSub
  refine safe_bind safe_require fun _ h1 => ?_
  have := (require_eq_ok _).1 h1
  refine safe_bind (safe_rdLE (by omega)) fun _ _ => safe_bind (safe_omDescriptor ho _ _ _) fun r _ => ?_
  split
  · exact safe_err
  · exact safe_subNode hf _

theorem safe_directSub {t : Tree} (hf : ∀ b, Safe (t.fetch b)) (value : Bytes) : Safe (directSub t value) := by
  unfold directSub
  refine safe_bind safe_require fun _ h1 => ?_
  have := (require_eq_ok _).1 h1
  exact safe_bind (safe_rdLE (by omega)) fun _ _ => safe_subNode hf _

theorem safe_rootNode {t : Tree} (hf : ∀ b, Safe (t.fetch b)) : Safe (rootNode t) := by
  unfold rootNode
  refine safe_bind safe_require fun _ _ => safe_bind (hf _) fun d _ => safe_bind (readNode_spec d).1 fun n hn => safe_bind safe_require fun _ _ =>
    safe_bind safe_require fun _ _ => safe_bind safe_require fun _ h1 => ?_
  have := (require_eq_ok _).1 h1
  obtain ⟨f, hf⟩ := readNode_footer hn (by omega)
  rw [hf]
  exact safe_bind safe_require fun _ _ => safe_bind safe_require fun _ _ => safe_bind safe_require fun _ _ => safe_ok _

theorem safe_enumLeaf (es : List Entry) : Safe (enumLeaf es) := by
  induction es with
  | nil => exact safe_ok _
  | cons e es ih =>
    unfold enumLeaf
    refine safe_bind safe_require fun _ h1 => ?_
    have := (require_eq_ok _).1 h1
    refine safe_bind (safe_rdLE (by omega)) fun _ _ => ?_
    split
    · exact safe_ok _
    · exact safe_bind (readEntry_safe e) fun _ _ => safe_bind ih fun _ _ => safe_ok _

theorem safe_enumBranch {visit : Bytes → Res (List Metadata)} (hv : ∀ v, Safe (visit v)) (es : List Entry) : Safe (enumBranch visit es) := by
  induction es with
  | nil => exact safe_ok _
  | cons e es ih =>
    unfold enumBranch
    refine safe_bind safe_require fun _ h1 => ?_
    have := (require_eq_ok _).1 h1
    refine safe_bind (safe_rdLE (by omega)) fun _ _ => ?_
    split
    · exact safe_ok _
    · exact safe_bind (hv _) fun _ _ => safe_bind ih fun _ _ => safe_ok _

theorem safe_enumNode {sub : Bytes → Res Node} (hs : ∀ v, Safe (sub v)) (fuel : Nat) (n : Node) : Safe (enumNode sub fuel n) := by
  induction fuel generalizing n with
  | zero => exact safe_err
  | succ fuel ih =>
    unfold enumNode
    split
    · exact safe_enumLeaf _
    · split
      · exact safe_err
      · exact safe_enumBranch (fun v => safe_bind (hs v) fun m _ => ih m) _

end Snapshot
end Verif
