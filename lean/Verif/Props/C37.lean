import Verif.Lemmas.Records
import Verif.Lemmas.NodeImage
import Verif.Spec.InodeFixed
/-!
# C37 Inode parsing is memory safe and faithful
-/
namespace Verif.Props
open Verif Res Spec Records

/-- Reading any bytes as an inode record stays within them. -/
theorem c37_safe (key value : Bytes) : Safe (readInode (key, value)) := by
  unfold readInode
  refine safe_bind ?_ fun _ _ => safe_readInodeValue _ _
  unfold readInodeKey
  refine safe_bind safe_require fun _ h1 => ?_
  have := (require_eq_ok _).1 h1
  exact safe_bind (safe_rdLE (by omega)) fun _ _ => safe_ok _

/-- The fields of an inode are at the offsets of the declaration in libfsapfs/fsapfs_file_system.h (`c37_stored_partial` compares that with the file system format), and its extended fields are
returned as stored: the fixed fields, and the name, data stream size and device number of the extended fields. The types of extended fields are different and
among those that are supported. -/
theorem c37_faithful_partial (key : Bytes) (hk : 8 ≤ key.length) (hk2 : key.length < 2 ^ 63) (fixed : Bytes) (h : fixed.length = 92) (fields : Option (List XField))
    (hf : ∀ l ∈ fields, l.length < 65536 ∧ (∀ f ∈ l, InodeField f) ∧ l.Pairwise (fun f g => g.type ≠ f.type)) (hl : (inodeValue fixed fields).length < 2 ^ 63) :
    readInode (key, inodeValue fixed fields) = ok
      { identifier := fsId key, parent := field fixed 0 8, dataStream := field fixed 8 8, modification := field fixed 16 8, creation := field fixed 24 8, change := field fixed 32 8,
        access := field fixed 40 8, flags := field fixed 48 8, links := field fixed 56 4, owner := field fixed 72 4, group := field fixed 76 4, mode := field fixed 80 2,
        name := xvalue (fields.getD []) 4, size := ((xvalue (fields.getD []) 8).map (fun v => leNat (v.take 8))).getD 0,
        device := ((xvalue (fields.getD []) 14).map leNat).getD 0 } := by
  unfold readInode readInodeKey
  simp only
  rw [require_true (by omega), ok_bind, BTree.rdLE_field (by omega), ok_bind]
  simp only [pure_eq, ok_bind]
  rw [readInodeValue_ok h hf hl]
  unfold withFields fixedInode fsId
  simp only [Option.or_none]

theorem fixed_length (f : InodeFixed) (hf : f.Fits) : f.bytes.length = 92 := by
  unfold InodeFixed.bytes
  simp only [List.length_append, length_toLE, hf.padding]

/-- An inode with the fields of the file system format, in their order there. All are returned as stored but two: what is returned as the modification time is the time the file was
created, and what is returned as the creation time is the time it was modified. -/
theorem c37_stored_partial (key : Bytes) (hk : 8 ≤ key.length) (hk2 : key.length < 2 ^ 63) (f : InodeFixed) (hw : f.Fits) (fields : Option (List XField))
    (hf : ∀ l ∈ fields, l.length < 65536 ∧ (∀ f ∈ l, InodeField f) ∧ l.Pairwise (fun f g => g.type ≠ f.type)) (hl : (inodeValue f.bytes fields).length < 2 ^ 63) :
    readInode (key, inodeValue f.bytes fields) = ok
      { identifier := fsId key, parent := f.parent, dataStream := f.dataStream, modification := f.created, creation := f.modified, change := f.changed,
        access := f.accessed, flags := f.flags, links := f.links, owner := f.owner, group := f.group, mode := f.mode,
        name := xvalue (fields.getD []) 4, size := ((xvalue (fields.getD []) 8).map (fun v => leNat (v.take 8))).getD 0,
        device := ((xvalue (fields.getD []) 14).map leNat).getD 0 } := by
  rw [c37_faithful_partial key hk hk2 f.bytes (fixed_length f hw) fields hf hl]
  have at_ : ∀ (a : Bytes) {n v : Nat}, (∃ b, f.bytes = a ++ (toLE n v ++ b)) → v < 256 ^ n → field f.bytes a.length n = v := fun a _ _ he hv => NodeImage.field_mid he rfl hv
  have e1 := at_ [] ⟨_, rfl⟩ (show f.parent < 256 ^ 8 from hw.parent)
  have e2 := at_ (toLE 8 f.parent) ⟨_, rfl⟩ (show f.dataStream < 256 ^ 8 from hw.dataStream)
  have e3 := at_ (toLE 8 f.parent ++ toLE 8 f.dataStream) ⟨_, by unfold InodeFixed.bytes; simp only [List.append_assoc]; rfl⟩ (show f.created < 256 ^ 8 from hw.created)
  have e4 := at_ (toLE 8 f.parent ++ toLE 8 f.dataStream ++ toLE 8 f.created) ⟨_, by unfold InodeFixed.bytes; simp only [List.append_assoc]; rfl⟩
    (show f.modified < 256 ^ 8 from hw.modified)
  have e5 := at_ (toLE 8 f.parent ++ toLE 8 f.dataStream ++ toLE 8 f.created ++ toLE 8 f.modified) ⟨_, by unfold InodeFixed.bytes; simp only [List.append_assoc]; rfl⟩
    (show f.changed < 256 ^ 8 from hw.changed)
  have e6 := at_ (toLE 8 f.parent ++ toLE 8 f.dataStream ++ toLE 8 f.created ++ toLE 8 f.modified ++ toLE 8 f.changed)
    ⟨_, by unfold InodeFixed.bytes; simp only [List.append_assoc]; rfl⟩ (show f.accessed < 256 ^ 8 from hw.accessed)
  have e7 := at_ (toLE 8 f.parent ++ toLE 8 f.dataStream ++ toLE 8 f.created ++ toLE 8 f.modified ++ toLE 8 f.changed ++ toLE 8 f.accessed)
    ⟨_, by unfold InodeFixed.bytes; simp only [List.append_assoc]; rfl⟩ (show f.flags < 256 ^ 8 from hw.flags)
  have e8 := at_ (toLE 8 f.parent ++ toLE 8 f.dataStream ++ toLE 8 f.created ++ toLE 8 f.modified ++ toLE 8 f.changed ++ toLE 8 f.accessed ++ toLE 8 f.flags)
    ⟨_, by unfold InodeFixed.bytes; simp only [List.append_assoc]; rfl⟩ (show f.links < 256 ^ 4 from hw.links)
  have e9 := at_ (toLE 8 f.parent ++ toLE 8 f.dataStream ++ toLE 8 f.created ++ toLE 8 f.modified ++ toLE 8 f.changed ++ toLE 8 f.accessed ++ toLE 8 f.flags ++ toLE 4 f.links ++
      toLE 4 f.protectionClass ++ toLE 4 f.generation ++ toLE 4 f.bsdFlags)
    ⟨_, by unfold InodeFixed.bytes; simp only [List.append_assoc]; rfl⟩ (show f.owner < 256 ^ 4 from hw.owner)
  have e10 := at_ (toLE 8 f.parent ++ toLE 8 f.dataStream ++ toLE 8 f.created ++ toLE 8 f.modified ++ toLE 8 f.changed ++ toLE 8 f.accessed ++ toLE 8 f.flags ++ toLE 4 f.links ++
      toLE 4 f.protectionClass ++ toLE 4 f.generation ++ toLE 4 f.bsdFlags ++ toLE 4 f.owner)
    ⟨_, by unfold InodeFixed.bytes; simp only [List.append_assoc]; rfl⟩ (show f.group < 256 ^ 4 from hw.group)
  have e11 := at_ (toLE 8 f.parent ++ toLE 8 f.dataStream ++ toLE 8 f.created ++ toLE 8 f.modified ++ toLE 8 f.changed ++ toLE 8 f.accessed ++ toLE 8 f.flags ++ toLE 4 f.links ++
      toLE 4 f.protectionClass ++ toLE 4 f.generation ++ toLE 4 f.bsdFlags ++ toLE 4 f.owner ++ toLE 4 f.group)
    ⟨_, by unfold InodeFixed.bytes; simp only [List.append_assoc]; rfl⟩ (show f.mode < 256 ^ 2 from hw.mode)
  simp only [List.length_append, length_toLE, List.length_nil] at e1 e2 e3 e4 e5 e6 e7 e8 e9 e10 e11
  rw [e1, e2, e3, e4, e5, e6, e7, e8, e9, e10, e11]

/-- The times of every file that was modified after it was created are exchanged: `created` and `modified` are those of the file system format. -/
theorem c37_times_swapped (key : Bytes) (hk : 8 ≤ key.length) (hk2 : key.length < 2 ^ 63) (f : InodeFixed) (hw : f.Fits) (h : f.created ≠ f.modified) :
    ∃ i, readInode (key, inodeValue f.bytes none) = ok i ∧ i.creation ≠ f.created ∧ i.modification ≠ f.modified ∧ i.creation = f.modified ∧ i.modification = f.created := by
  refine ⟨_, c37_stored_partial key hk hk2 f hw none (fun l hl => by cases hl) ?_, ?_, h, rfl, rfl⟩
  · show (f.bytes ++ []).length < 2 ^ 63
    rw [List.append_nil, fixed_length f hw]
    decide
  · exact fun he => h he.symm

/-- a file created at 1 s, modified at 2 s, changed at 3 s and read at 4 s -/
def timed : InodeFixed :=
  { parent := 2, dataStream := 16, created := 1000000000, modified := 2000000000, changed := 3000000000, accessed := 4000000000, flags := 0x8000, links := 1, protectionClass := 0,
    generation := 1, bsdFlags := 0, owner := 501, group := 20, mode := 0x81a4, padding := List.replicate 10 0 }

example : timed.Fits ∧ timed.created ≠ timed.modified := ⟨⟨by decide, by decide, by decide, by decide, by decide, by decide, by decide, by decide, by decide, by decide, by decide, rfl⟩, by decide⟩

/-- Where the first extended field is and how it is checked, for the theorems about fields that are refused. -/
theorem c37_one_field_refused (identifier : Nat) (fixed : Bytes) (h : fixed.length = 92) (f : XField) (hs : f.value.length < 65536)
    (hf : f.value.length = 0 ∨ f.type ∉ ([1, 2, 3, 4, 5, 7, 8, 10, 11, 13, 14, 15] : List UInt8)) :
    readInodeValue identifier (inodeValue fixed (some [f])) = err := by
  have hd : inodeValue fixed (some [f]) = fixed ++ xfields [f] := rfl
  have hx : (xfields [f]).length = 8 + f.padded.length := by
    unfold xfields
    simp [header_length]
    omega
  have hpad := padded_length f
  have hlen : (inodeValue fixed (some [f])).length = 100 + f.padded.length := by
    rw [hd, List.length_append, hx]
    omega
  have hr : ∀ off n, off + n ≤ 92 → rdLE (inodeValue fixed (some [f])) off n = ok (field (inodeValue fixed (some [f])) off n) := fun off n hle => BTree.rdLE_field (by omega)
  have r3 : rdLE (inodeValue fixed (some [f])) 92 2 = ok 1 := by
    rw [hd]
    exact rdLE_mid _ _ 2 1 92 h (by omega)
  obtain ⟨q1, q2, q3, q4, q5, _⟩ := field_reads (d := inodeValue fixed (some [f])) (f := f)
    (a := fixed ++ (toLE 2 1 ++ toLE 2 f.padded.length)) (b := f.padded)
    (a' := fixed ++ (toLE 2 1 ++ (toLE 2 f.padded.length ++ f.header))) (b' := [])
    (by rw [hd]; unfold xfields; simp) (by rw [hd]; unfold xfields; simp) hs
  simp only [List.length_append, length_toLE, header_length, h] at q1 q2 q3 q4 q5
  unfold readInodeValue
  rw [require_true (by omega), ok_bind]
  rw [hr 0 8 (by omega), ok_bind, hr 8 8 (by omega), ok_bind, hr 16 8 (by omega), ok_bind, hr 24 8 (by omega), ok_bind, hr 32 8 (by omega), ok_bind,
    hr 40 8 (by omega), ok_bind, hr 48 8 (by omega), ok_bind, hr 56 4 (by omega), ok_bind, hr 72 4 (by omega), ok_bind, hr 76 4 (by omega), ok_bind,
    hr 80 2 (by omega), ok_bind]
  simp only
  rw [if_pos (by omega), require_true (by omega), ok_bind, r3, ok_bind]
  unfold inodeFields
  rw [require_true q1, ok_bind, q2, ok_bind, q3, ok_bind, require_true q4, ok_bind]
  by_cases h0 : f.value.length = 0
  · rw [require_false (by simp [h0])]
    rfl
  · rw [require_true (by omega), ok_bind]
    have ht := hf.resolve_left h0
    simp only [List.mem_cons, List.not_mem_nil, or_false, not_or] at ht
    have hne : ∀ n : UInt8, f.type ≠ n → f.type.toNat ≠ n.toNat := fun n hn he => hn (UInt8.toNat_inj.1 he)
    obtain ⟨t1, t2, t3, t4, t5, t6, t7, t8, t9, t10, t11, t12⟩ := ht
    have n1 : f.type.toNat ≠ 1 := hne 1 t1
    have n2 : f.type.toNat ≠ 2 := hne 2 t2
    have n3 : f.type.toNat ≠ 3 := hne 3 t3
    have n4 : f.type.toNat ≠ 4 := hne 4 t4
    have n5 : f.type.toNat ≠ 5 := hne 5 t5
    have n6 : f.type.toNat ≠ 7 := hne 7 t6
    have n7 : f.type.toNat ≠ 8 := hne 8 t7
    have n8 : f.type.toNat ≠ 10 := hne 10 t8
    have n9 : f.type.toNat ≠ 11 := hne 11 t9
    have n10 : f.type.toNat ≠ 13 := hne 13 t10
    have n11 : f.type.toNat ≠ 14 := hne 14 t11
    have n12 : f.type.toNat ≠ 15 := hne 15 t12
    unfold inodeField
    rw [if_neg (by simp only [not_or]; exact ⟨n1, n2, n3, n5, n6, n8, n9, n10, n12⟩), if_neg n4, if_neg n7, if_neg n11]
    rfl

/-- An inode with an extended field of type 16 (original sync root identifier) or with an empty extended field, both allowed by the file system, cannot be read. -/
theorem c37_valid_fields_refused (identifier : Nat) (fixed : Bytes) (h : fixed.length = 92) :
    readInodeValue identifier (inodeValue fixed (some [⟨16, 0, [1, 2, 3, 4, 5, 6, 7, 8]⟩])) = err ∧ readInodeValue identifier (inodeValue fixed (some [⟨4, 0, []⟩])) = err :=
  ⟨c37_one_field_refused identifier fixed h _ (by decide) (.inr (by decide)), c37_one_field_refused identifier fixed h _ (by decide) (.inl rfl)⟩

/-! An example with name, data stream and device number -/

def exampleFields : List XField := [⟨4, 2, [97, 46, 116, 120, 116, 0]⟩, ⟨8, 0x20, toLE 8 5000 ++ toLE 8 8192 ++ List.replicate 24 0⟩, ⟨14, 2, toLE 4 0x03000005⟩]

example : (∀ f ∈ exampleFields, InodeField f) ∧ exampleFields.Pairwise (fun f g => g.type ≠ f.type) := by
  refine ⟨?_, by decide⟩
  unfold InodeField
  decide

example : readInode (toLE 8 (3 * 2 ^ 60 + 20), inodeValue (List.replicate 80 1 ++ (toLE 2 0x61a4 ++ List.replicate 10 0)) (some exampleFields)) =
    ok { identifier := 20, parent := 0x0101010101010101, dataStream := 0x0101010101010101, modification := 0x0101010101010101, creation := 0x0101010101010101, change := 0x0101010101010101,
         access := 0x0101010101010101, flags := 0x0101010101010101, links := 0x01010101, owner := 0x01010101, group := 0x01010101, mode := 0x61a4,
         name := some [97, 46, 116, 120, 116, 0], size := 5000, device := 0x03000005 } := by decide +kernel

end Verif.Props
