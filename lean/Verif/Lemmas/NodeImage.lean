import Verif.Spec.NodeImage
import Verif.Lemmas.BTree
/-!
# What is written in a node is read from it
-/
namespace Verif
open Res Spec
namespace NodeImage

theorem slice_mid {d a m : Bytes} {off n : Nat} (h : ∃ b, d = a ++ (m ++ b)) (ho : off = a.length) (hn : n = m.length) : slice d off n = m := by
  obtain ⟨b, h⟩ := h
  subst h ho hn
  unfold slice
  rw [List.drop_left, List.take_left]

theorem field_mid {d a : Bytes} {off n v : Nat} (h : ∃ b, d = a ++ (toLE n v ++ b)) (ho : off = a.length) (hv : v < 256 ^ n) : field d off n = v := by
  unfold field
  rw [slice_mid h ho (by rw [length_toLE])]
  exact leNat_toLE _ _ hv

theorem length_tocEntry (fixed : Bool) (ko vo : Nat) (e : Record) : (tocEntry fixed ko vo e).length = if fixed then 4 else 8 := by
  unfold tocEntry
  cases fixed <;> simp [length_toLE]

theorem length_tocOf (fixed : Bool) (ko : Nat) (es : List Record) : (tocOf fixed ko es).length = es.length * if fixed then 4 else 8 := by
  induction es generalizing ko with
  | nil => simp [tocOf]
  | cons e es ih =>
    rw [tocOf, List.length_append, length_tocEntry, ih, List.length_cons, Nat.succ_mul, Nat.add_comm]

theorem tocOf_append (fixed : Bool) (ko : Nat) (a b : List Record) : ∃ t, tocOf fixed ko (a ++ b) = t ++ tocOf fixed (ko + (keysOf a).length) b ∧ t.length = a.length * if fixed then 4 else 8 := by
  induction a generalizing ko with
  | nil => exact ⟨[], by simp [keysOf], by simp⟩
  | cons e a ih =>
    obtain ⟨t, h1, h2⟩ := ih (ko + e.1.length)
    refine ⟨tocEntry fixed ko (valuesOf (e :: (a ++ b))).length e ++ t, ?_, ?_⟩
    · rw [List.cons_append, tocOf, h1, List.append_assoc]
      simp only [keysOf, List.map_cons, List.flatten_cons, List.length_append]
      rw [Nat.add_assoc]
    · rw [List.length_append, length_tocEntry, h2, List.length_cons, Nat.succ_mul, Nat.add_comm]

theorem flags_lt (f : NodeForm) : f.flags < 8 := by
  unfold NodeForm.flags
  cases f.root <;> cases f.leaf <;> cases f.fixed <;> decide

theorem length_footer (f : NodeForm) : f.footer.length = if f.root then 40 else 0 := by
  unfold NodeForm.footer
  cases f.root <;> simp

theorem length_header (f : NodeForm) (n m : Nat) : (f.header n m).length = 56 := by
  unfold NodeForm.header
  simp

variable {f : NodeForm} {es : List Record}

theorem length_bytes (h : f.Fits es) : (f.bytes es).length = 4096 := by
  have := h.room
  unfold NodeForm.bytes
  simp only [List.length_append, length_header, List.length_replicate]
  unfold NodeForm.need at *
  omega

theorem count_lt (h : f.Fits es) : es.length < 2000 := by
  have := h.toc
  rw [length_tocOf] at this
  split at this <;> omega

theorem type_bytes (h : f.Fits es) : BNode.type (f.bytes es) = f.type := by
  refine field_mid (a := List.replicate 24 0) ?_ (by simp only [List.length_replicate]) h.type
  unfold NodeForm.bytes NodeForm.header
  simp only [List.append_assoc]
  exact ⟨_, rfl⟩

theorem subtype_bytes (h : f.Fits es) : BNode.subtype (f.bytes es) = f.subtype := by
  refine field_mid (a := List.replicate 24 0 ++ toLE 4 f.type) ?_ (by simp only [List.length_append, List.length_replicate, length_toLE]) h.subtype
  unfold NodeForm.bytes NodeForm.header
  simp only [List.append_assoc]
  exact ⟨_, rfl⟩

theorem flags_bytes : BNode.flags (f.bytes es) = f.flags := by
  refine field_mid (a := List.replicate 24 0 ++ (toLE 4 f.type ++ toLE 4 f.subtype)) ?_ (by simp only [List.length_append, List.length_replicate, length_toLE]) (Nat.lt_trans (flags_lt f) (by decide))
  unfold NodeForm.bytes NodeForm.header
  simp only [List.append_assoc]
  exact ⟨_, rfl⟩

theorem count_bytes (h : f.Fits es) : BNode.count (f.bytes es) = es.length := by
  refine field_mid (a := List.replicate 24 0 ++ (toLE 4 f.type ++ (toLE 4 f.subtype ++ (toLE 2 f.flags ++ toLE 2 0)))) ?_ (by simp only [List.length_append, List.length_replicate, length_toLE]) (Nat.lt_trans (count_lt h) (by decide))
  unfold NodeForm.bytes NodeForm.header
  simp only [List.append_assoc]
  exact ⟨_, rfl⟩

theorem tocOffset_bytes : BNode.tocOffset (f.bytes es) = 0 := by
  refine field_mid (a := List.replicate 24 0 ++ (toLE 4 f.type ++ (toLE 4 f.subtype ++ (toLE 2 f.flags ++ (toLE 2 0 ++ toLE 4 es.length))))) ?_ (by simp only [List.length_append, List.length_replicate, length_toLE]) (by decide)
  unfold NodeForm.bytes NodeForm.header
  simp only [List.append_assoc]
  exact ⟨_, rfl⟩

theorem tocSize_bytes (h : f.Fits es) : BNode.tocSize (f.bytes es) = (tocOf f.fixed 0 es).length := by
  refine field_mid (a := List.replicate 24 0 ++ (toLE 4 f.type ++ (toLE 4 f.subtype ++ (toLE 2 f.flags ++ (toLE 2 0 ++ (toLE 4 es.length ++ toLE 2 0)))))) ?_ (by simp only [List.length_append, List.length_replicate, length_toLE])
    (Nat.lt_trans h.toc (by decide))
  unfold NodeForm.bytes NodeForm.header
  simp only [List.append_assoc]
  exact ⟨_, rfl⟩

theorem unusedOffset_bytes : BNode.unusedOffset (f.bytes es) = 0 := by
  refine field_mid (a := List.replicate 24 0 ++ (toLE 4 f.type ++ (toLE 4 f.subtype ++ (toLE 2 f.flags ++ (toLE 2 0 ++ (toLE 4 es.length ++ (toLE 2 0 ++
    toLE 2 (tocOf f.fixed 0 es).length))))))) ?_ (by simp only [List.length_append, List.length_replicate, length_toLE]) (by decide)
  unfold NodeForm.bytes NodeForm.header
  simp only [List.append_assoc]
  exact ⟨_, rfl⟩

theorem root_bytes : BNode.root (f.bytes es) = f.root := by
  unfold BNode.root
  rw [flags_bytes]
  unfold NodeForm.flags
  cases f.root <;> cases f.leaf <;> cases f.fixed <;> rfl

theorem leaf_bytes : BNode.leaf (f.bytes es) = f.leaf := by
  unfold BNode.leaf
  rw [flags_bytes]
  unfold NodeForm.flags
  cases f.root <;> cases f.leaf <;> cases f.fixed <;> rfl

theorem fixed_bytes : BNode.fixed (f.bytes es) = f.fixed := by
  unfold BNode.fixed
  rw [flags_bytes]
  unfold NodeForm.flags
  cases f.root <;> cases f.leaf <;> cases f.fixed <;> rfl

theorem entrySize_bytes : BNode.entrySize (f.bytes es) = if f.fixed then 4 else 8 := by
  unfold BNode.entrySize
  rw [fixed_bytes]

theorem valuesEnd_bytes (h : f.Fits es) : BNode.valuesEnd (f.bytes es) = 4096 - f.footer.length := by
  unfold BNode.valuesEnd
  rw [length_bytes h, root_bytes, length_footer]

theorem entryStart_bytes (i : Nat) : BNode.entryStart (f.bytes es) i = 56 + i * if f.fixed then 4 else 8 := by
  unfold BNode.entryStart
  rw [tocOffset_bytes, entrySize_bytes]

theorem keysOf_append (a b : List Record) : keysOf (a ++ b) = keysOf a ++ keysOf b := by simp [keysOf]
theorem valuesOf_append (a b : List Record) : valuesOf (a ++ b) = valuesOf a ++ valuesOf b := by simp [valuesOf]
theorem keysOf_cons (e : Record) (b : List Record) : keysOf (e :: b) = e.1 ++ keysOf b := by simp [keysOf]
theorem valuesOf_cons (e : Record) (b : List Record) : valuesOf (e :: b) = e.2 ++ valuesOf b := by simp [valuesOf]

/-- what is read of entry `a.length` -/
theorem entry_bytes {a b : List Record} {e : Record} (h : f.Fits (a ++ e :: b)) :
    BNode.keyStart (f.bytes (a ++ e :: b)) a.length = 56 + (tocOf f.fixed 0 (a ++ e :: b)).length + (keysOf a).length ∧
    BNode.keyLen (f.bytes (a ++ e :: b)) a.length = e.1.length ∧
    BNode.valueOffset (f.bytes (a ++ e :: b)) a.length = (valuesOf (e :: b)).length ∧
    BNode.valueLen (f.bytes (a ++ e :: b)) a.length = e.2.length := by
  have hroom := h.room
  unfold NodeForm.need at hroom
  rw [keysOf_append, valuesOf_append, keysOf_cons] at hroom
  simp only [List.length_append] at hroom
  obtain ⟨t, h1, h2⟩ := tocOf_append f.fixed 0 a (e :: b)
  have hv : (valuesOf (e :: b)).length < 256 ^ 2 := by omega
  have hk : (keysOf a).length < 256 ^ 2 := by omega
  have hkl : e.1.length < 256 ^ 2 := by omega
  have hvl : e.2.length < 256 ^ 2 := by
    rw [valuesOf_cons, List.length_append] at hv
    omega
  have hbytes : f.bytes (a ++ e :: b) = (f.header (a ++ e :: b).length (tocOf f.fixed 0 (a ++ e :: b)).length ++ t) ++
      (tocEntry f.fixed (keysOf a).length (valuesOf (e :: b)).length e ++ (tocOf f.fixed ((keysOf a).length + e.1.length) b ++
        (keysOf (a ++ e :: b) ++ (List.replicate (4096 - f.need (a ++ e :: b)) 0 ++ (valuesOf (a ++ e :: b) ++ f.footer))))) := by
    unfold NodeForm.bytes
    rw [h1, Nat.zero_add, tocOf]
    simp only [List.append_assoc]
  have hstart : BNode.entryStart (f.bytes (a ++ e :: b)) a.length = (f.header (a ++ e :: b).length (tocOf f.fixed 0 (a ++ e :: b)).length ++ t).length := by
    rw [entryStart_bytes, List.length_append, length_header, h2]
  unfold BNode.keyStart BNode.keyLen BNode.valueOffset BNode.valueLen
  rw [hstart, tocOffset_bytes, tocSize_bytes h, fixed_bytes, leaf_bytes]
  have hobj := h.objectMap
  unfold tocEntry at hbytes
  cases hf : f.fixed with
  | true =>
    rw [hf] at hbytes hobj
    obtain ⟨_, hlen⟩ := hobj rfl
    obtain ⟨l1, l2⟩ := hlen e (by simp)
    simp only [if_true] at hbytes ⊢
    simp only [List.append_assoc] at hbytes
    refine ⟨?_, l1.symm, ?_, l2.symm⟩
    · rw [field_mid ⟨_, hbytes.trans (List.append_assoc _ _ _).symm⟩ rfl hk]
    · refine field_mid (a := (f.header (a ++ e :: b).length (tocOf true 0 (a ++ e :: b)).length ++ t) ++ toLE 2 (keysOf a).length) ?_ (by simp only [List.length_append, length_toLE]) hv
      rw [hbytes]
      simp only [List.append_assoc]
      exact ⟨_, rfl⟩
  | false =>
    rw [hf] at hbytes
    simp only [Bool.false_eq_true, if_false] at hbytes ⊢
    simp only [List.append_assoc] at hbytes
    refine ⟨?_, ?_, ?_, ?_⟩
    · rw [field_mid ⟨_, hbytes.trans (List.append_assoc _ _ _).symm⟩ rfl hk]
    · refine field_mid (a := (f.header (a ++ e :: b).length (tocOf false 0 (a ++ e :: b)).length ++ t) ++ toLE 2 (keysOf a).length) ?_ (by simp only [List.length_append, length_toLE]) hkl
      rw [hbytes]
      simp only [List.append_assoc]
      exact ⟨_, rfl⟩
    · refine field_mid (a := (f.header (a ++ e :: b).length (tocOf false 0 (a ++ e :: b)).length ++ t) ++ toLE 2 (keysOf a).length ++ toLE 2 e.1.length) ?_
        (by simp only [List.length_append, length_toLE]) hv
      rw [hbytes]
      simp only [List.append_assoc]
      exact ⟨_, rfl⟩
    · refine field_mid (a := (f.header (a ++ e :: b).length (tocOf false 0 (a ++ e :: b)).length ++ t) ++ toLE 2 (keysOf a).length ++ toLE 2 e.1.length ++ toLE 2 (valuesOf (e :: b)).length) ?_
        (by simp only [List.length_append, length_toLE]) hvl
      rw [hbytes]
      simp only [List.append_assoc]
      exact ⟨_, rfl⟩

theorem slices {a b : List Record} {e : Record} (h : f.Fits (a ++ e :: b)) :
    slice (f.bytes (a ++ e :: b)) (56 + (tocOf f.fixed 0 (a ++ e :: b)).length + (keysOf a).length) e.1.length = e.1 ∧
    slice (f.bytes (a ++ e :: b)) (4096 - f.footer.length - (valuesOf (e :: b)).length) e.2.length = e.2 ∧
    56 + (tocOf f.fixed 0 (a ++ e :: b)).length + (keysOf a).length + e.1.length ≤ 4096 ∧
    (valuesOf (e :: b)).length ≤ 4096 - f.footer.length ∧ e.2.length ≤ (valuesOf (e :: b)).length := by
  have hroom := h.room
  have hneed : f.need (a ++ e :: b) = f.need (a ++ e :: b) := rfl
  conv at hneed => rhs; unfold NodeForm.need
  rw [keysOf_append, valuesOf_append, keysOf_cons, valuesOf_cons] at hneed
  simp only [List.length_append] at hneed
  refine ⟨?_, ?_, by omega, ?_, ?_⟩
  · refine slice_mid (a := f.header (a ++ e :: b).length (tocOf f.fixed 0 (a ++ e :: b)).length ++ (tocOf f.fixed 0 (a ++ e :: b) ++ keysOf a)) ?_ ?_ rfl
    · unfold NodeForm.bytes
      rw [keysOf_append, keysOf_cons]
      simp only [List.append_assoc]
      exact ⟨_, rfl⟩
    · simp only [List.length_append, length_header]
      omega
  · refine slice_mid (a := f.header (a ++ e :: b).length (tocOf f.fixed 0 (a ++ e :: b)).length ++ (tocOf f.fixed 0 (a ++ e :: b) ++ (keysOf (a ++ e :: b) ++
      (List.replicate (4096 - f.need (a ++ e :: b)) 0 ++ valuesOf a)))) ?_ ?_ rfl
    · unfold NodeForm.bytes
      rw [valuesOf_append, valuesOf_cons]
      simp only [List.append_assoc]
      exact ⟨_, rfl⟩
    · rw [keysOf_append, keysOf_cons, valuesOf_cons]
      simp only [List.length_append, length_header, List.length_replicate]
      omega
  · rw [valuesOf_cons, List.length_append]
    omega
  · rw [valuesOf_cons, List.length_append]
    omega

theorem split_at {es : List Record} {i : Nat} (hi : i < es.length) : es = es.take i ++ es[i] :: es.drop (i + 1) := by
  rw [← List.drop_eq_getElem_cons hi, List.take_append_drop]

theorem valid_bytes (h : f.Fits es) : BNode.Valid (f.bytes es) where
  size := by rw [length_bytes h]; decide
  size2 := by rw [length_bytes h]; decide
  typ := by rw [type_bytes h]; exact h.kind
  toc := by
    rw [tocOffset_bytes, tocSize_bytes h, unusedOffset_bytes, length_bytes h]
    have := h.toc
    omega
  keys := by
    rw [count_bytes h, entrySize_bytes, tocSize_bytes h, length_tocOf]
    exact Nat.le_refl _
  objectMap := by
    intro hf _
    rw [fixed_bytes] at hf
    rw [subtype_bytes h]
    exact (h.objectMap hf).1
  key := by
    intro i hi
    rw [count_bytes h] at hi
    have hs := split_at hi
    have hl : (es.take i).length = i := by rw [List.length_take]; omega
    rw [hs] at h
    obtain ⟨e1, e2, _, _⟩ := entry_bytes h
    obtain ⟨_, _, h3, _, _⟩ := slices h
    have h4 := length_bytes h
    rw [← hs] at e1 e2 h3 h4
    rw [hl] at e1 e2
    rw [e1, e2, h4]
    exact h3
  value := by
    intro i hi
    rw [count_bytes h] at hi
    have hs := split_at hi
    have hl : (es.take i).length = i := by rw [List.length_take]; omega
    have hend := valuesEnd_bytes h
    rw [hs] at h
    obtain ⟨_, _, e1, e2⟩ := entry_bytes h
    obtain ⟨_, _, _, h3, h5⟩ := slices h
    have h4 := length_bytes h
    rw [← hs] at e1 e2 h4
    rw [hl] at e1 e2
    rw [e1, e2, h4, hend]
    omega

theorem entries_bytes (h : f.Fits es) : BNode.entries (f.bytes es) = es := by
  unfold BNode.entries
  rw [count_bytes h]
  apply List.ext_getElem
  · simp
  · intro i h1 h2
    rw [List.getElem_map, List.getElem_range]
    have hs := split_at h2
    have hl : (es.take i).length = i := by rw [List.length_take]; omega
    have hend := valuesEnd_bytes h
    have h' := h
    rw [hs] at h'
    obtain ⟨e1, e2, e3, e4⟩ := entry_bytes h'
    obtain ⟨s1, s2, _, _, _⟩ := slices h'
    rw [← hs] at e1 e2 e3 e4 s1 s2
    rw [hl] at e1 e2 e3 e4
    rw [e1, e2, e3, e4, hend, s1, s2]

theorem nodeOf_bytes (h : f.Fits es) : nodeOf (f.bytes es) = { leaf := f.leaf, entries := es } := by
  unfold nodeOf
  rw [leaf_bytes, entries_bytes h]

theorem footer_bytes (h : f.Fits es) (hr : f.root = true) : footerFields (f.bytes es) = (4096, f.keySize, f.valueSize) := by
  have hroom := h.room
  have hl := length_footer f
  rw [hr, if_pos rfl] at hl
  unfold footerFields
  rw [length_bytes h]
  have hfoot : f.footer = List.replicate 4 0 ++ (toLE 4 4096 ++ (toLE 4 f.keySize ++ (toLE 4 f.valueSize ++ List.replicate 24 0))) := by
    unfold NodeForm.footer
    rw [if_pos hr]
  generalize hx : f.header es.length (tocOf f.fixed 0 es).length ++ (tocOf f.fixed 0 es ++ (keysOf es ++ (List.replicate (4096 - f.need es) 0 ++ valuesOf es))) = x
  have hb : f.bytes es = x ++ f.footer := by
    rw [← hx]
    unfold NodeForm.bytes
    simp only [List.append_assoc]
  have hxl : x.length = 4056 := by
    have := length_bytes h
    rw [hb, List.length_append, hl] at this
    omega
  rw [hfoot] at hb
  have a1 : field (f.bytes es) (4096 - 40 + 4) 4 = 4096 := by
    refine field_mid (a := x ++ List.replicate 4 0) ?_ (by simp only [List.length_append, List.length_replicate, hxl]) (by decide)
    rw [hb]
    simp only [List.append_assoc]
    exact ⟨_, rfl⟩
  have a2 : field (f.bytes es) (4096 - 40 + 8) 4 = f.keySize := by
    refine field_mid (a := x ++ List.replicate 4 0 ++ toLE 4 4096) ?_ (by simp only [List.length_append, List.length_replicate, length_toLE, hxl]) h.sizes.1
    rw [hb]
    simp only [List.append_assoc]
    exact ⟨_, rfl⟩
  have a3 : field (f.bytes es) (4096 - 40 + 12) 4 = f.valueSize := by
    refine field_mid (a := x ++ List.replicate 4 0 ++ toLE 4 4096 ++ toLE 4 f.keySize) ?_ (by simp only [List.length_append, List.length_replicate, length_toLE, hxl]) h.sizes.2
    rw [hb]
    simp only [List.append_assoc]
    exact ⟨_, rfl⟩
  rw [a1, a2, a3]

end NodeImage
end Verif
