import Verif.Lemmas.CompressionTable
/-! Lemmas: the forks of Spec/CompressedFile.lean are read as intended -/
namespace Verif
open Res Spec
namespace Compressed

theorem flatMap_chunk {α : Type} (f : α → Bytes) (w : Nat) (hf : ∀ a, (f a).length = w) (l : List α) (rest : Bytes) (i : Nat) (a : α)
    (h : l[i]? = some a) : ((l.flatMap f ++ rest).drop (i * w)).take w = f a := by
  induction l generalizing i with
  | nil => simp at h
  | cons x xs ih =>
    cases i with
    | zero =>
      simp only [List.getElem?_cons_zero, Option.some.injEq] at h
      subst h
      simp [List.flatMap_cons, List.append_assoc, List.take_left' (hf x)]
    | succ i =>
      have := ih i (by simpa using h)
      rw [List.flatMap_cons, List.append_assoc, show (i + 1) * w = w + i * w by rw [Nat.add_mul]; omega, ← List.drop_drop,
        List.drop_left' (hf x)]
      exact this

theorem length_flatMap_const {α : Type} (f : α → Bytes) (w : Nat) (hf : ∀ a, (f a).length = w) (l : List α) :
    (l.flatMap f).length = l.length * w := by
  induction l with
  | nil => simp
  | cons x xs ih => rw [List.flatMap_cons, List.length_append, ih, hf, List.length_cons, Nat.add_mul]; omega

theorem length_starts (base : Nat) (bs : List Bytes) : (starts base bs).length = bs.length := by
  induction bs generalizing base with
  | nil => rfl
  | cons b bs ih => simp [starts, ih]

theorem starts_get (base : Nat) (bs : List Bytes) (i : Nat) (h : i < bs.length) :
    (starts base bs)[i]? = some (base + (bs.take i).flatten.length) := by
  induction bs generalizing base i with
  | nil => simp at h
  | cons b bs ih =>
    cases i with
    | zero => simp [starts]
    | succ i =>
      simp only [starts, List.getElem?_cons_succ, List.take_succ_cons, List.flatten_cons, List.length_append]
      rw [ih _ i (by simpa using h)]
      simp; omega

theorem starts_append (base : Nat) (bs cs : List Bytes) : starts base (bs ++ cs) = starts base bs ++ starts (base + bs.flatten.length) cs := by
  induction bs generalizing base with
  | nil => simp [starts]
  | cons b bs ih => simp [starts, ih]; congr 1; omega

theorem starts_le {base : Nat} {bs : List Bytes} {v : Nat} (h : v ∈ starts base bs) : base ≤ v ∧ v ≤ base + bs.flatten.length := by
  induction bs generalizing base with
  | nil => simp [starts] at h
  | cons b bs ih =>
    simp only [starts, List.mem_cons] at h
    simp only [List.flatten_cons, List.length_append]
    rcases h with rfl | h
    · omega
    · have := ih h; omega

/-- start offsets of the blocks behind the first one, followed by the end -/
theorem starts_mono (base : Nat) (b : Bytes) (bs : List Bytes) (h : ∀ x ∈ b :: bs, x.length ≤ bufferSize) :
    Mono base (starts (base + b.length) bs ++ [base + (b :: bs).flatten.length]) := by
  induction bs generalizing base b with
  | nil => have := h b (by simp); refine ⟨?_, ?_, trivial⟩ <;> simp <;> omega
  | cons c cs ih =>
    have h1 := h b (by simp)
    have := ih (base + b.length) c (fun x hx => h x (List.mem_cons_of_mem _ hx))
    refine ⟨by omega, by omega, ?_⟩
    simp only [List.flatten_cons, List.length_append] at this ⊢
    rw [show base + (b.length + (c.length + cs.flatten.length)) = base + b.length + (c.length + cs.flatten.length) by omega]
    exact this

theorem Mono.left {p : Nat} {l m : List Nat} (h : Mono p (l ++ m)) : Mono p l := by
  induction l generalizing p with
  | nil => trivial
  | cons v r ih => exact ⟨h.1, h.2.1, ih h.2.2⟩

theorem offsetsLoop_of (deflate : Bool) (base : Nat) (vs : List Nat) (descs : Bytes) (p : Nat)
    (hl : ∀ i v, vs[i]? = some v → base ≤ v ∧ v < 2 ^ 32 ∧ (descs.drop (i * (if deflate then 8 else 4))).take 4 = toLE 4 (v - base))
    (hm : Mono p vs) : offsetsLoop deflate base vs.length descs p = ok vs := by
  induction vs generalizing descs p with
  | nil => rfl
  | cons v vs ih =>
    obtain ⟨h1, h2, h3⟩ := hl 0 v (by simp)
    simp only [Nat.zero_mul] at h3
    have hlen : 0 + 4 ≤ descs.length := by
      have := congrArg List.length h3
      simp at this; omega
    rw [List.length_cons, offsetsLoop, rdLE_le hlen, ok_bind, h3, leNat_toLE _ _ (by omega)]
    simp only
    rw [show (v - base + base) % 2 ^ 32 = v by omega]
    obtain ⟨m1, m2, m3⟩ := hm
    rw [require_true (by omega), ok_bind, ih _ _ ?_ m3]
    · rfl
    · intro i w hw
      obtain ⟨a, b, c⟩ := hl (i + 1) w (by simpa using hw)
      refine ⟨a, b, ?_⟩
      rw [List.drop_drop, ← c, Nat.add_mul]
      congr 2
      omega

theorem readTable_of (D : Bytes) (deflate : Bool) (n first at_ base dsize : Nat) (vs : List Nat) (hds : dsize = if deflate then 8 else 4)
    (hn : n = vs.length + 1) (hn2 : n ≤ 128 * 1024 * 1024 / 4 - 1) (hfit : at_ + (n - 1) * dsize ≤ bufferSize)
    (hl : at_ + (n - 1) * dsize ≤ D.length) (hf : dsize < first) (hf2 : first < bufferSize) (hbase : base ≤ 260)
    (hv : ∀ i v, vs[i]? = some v → base ≤ v ∧ v < 2 ^ 32 ∧
      (D.drop (at_ + (if deflate then 4 else 0) + i * dsize)).take 4 = toLE 4 (v - base))
    (hm : Mono (first + base) vs) : readTable D deflate n first at_ dsize base = ok ((first + base) :: vs) := by
  unfold readTable
  unfold bufferSize blockSize at hf2 hfit
  have hd : dsize = 8 ∨ dsize = 4 := by cases deflate <;> simp_all
  rw [require_true (by omega), ok_bind, if_neg (by omega)]
  have hread : readInto D at_ ((n - 1) * dsize) at_ = ok ((D.drop at_).take ((n - 1) * dsize)) := by
    unfold readInto
    rw [if_neg (by rcases hd with rfl | rfl <;> omega), if_neg]
    simp only [List.length_take, List.length_drop]
    unfold bufferSize blockSize
    omega
  simp only [hread, ok_bind]
  rw [require_true (by simp; omega), ok_bind, require_true (by unfold bufferSize blockSize; omega), ok_bind,
    show (first + base) % 2 ^ 32 = first + base by omega, show n - 1 = vs.length by omega]
  rw [offsetsLoop_of deflate base vs _ _ ?_ hm]
  · rfl
  · intro i v hi
    obtain ⟨h1, h2, h3⟩ := hv i v hi
    refine ⟨h1, h2, ?_⟩
    have hi' : i < vs.length := (List.getElem?_eq_some_iff.1 hi).1
    have hmul : i * dsize + dsize ≤ vs.length * dsize := by
      have := Nat.mul_le_mul_right dsize (show i + 1 ≤ vs.length from hi')
      rw [Nat.add_mul] at this; omega
    rw [← h3]
    cases deflate with
    | true =>
      simp only [if_true] at hds ⊢
      subst hds
      rw [List.drop_drop, List.drop_take, List.drop_drop, List.take_take, Nat.min_eq_left (by omega)]
      congr 2
      omega
    | false =>
      simp only [Bool.false_eq_true, if_false] at hds ⊢
      subst hds
      rw [List.drop_take, List.drop_drop, List.take_take, Nat.min_eq_left (by omega)]
      congr 2

/-! ## LZVN -/

theorem lzvn_offsets (blocks : List Bytes) (h1 : 1 ≤ blocks.length) (h2 : blocks.length + 1 ≤ 16384)
    (hb : ∀ b ∈ blocks, b.length ≤ bufferSize) (hlen : (lzvnFork blocks).length < 2 ^ 32) :
    getOffsets methodLzvn (lzvnFork blocks) = ok (starts (4 * (blocks.length + 1)) blocks ++
      [(lzvnFork blocks).length, (lzvnFork blocks).length]) := by
  obtain ⟨b, bs, rfl⟩ : ∃ b bs, blocks = b :: bs := by
    cases blocks with
    | nil => simp at h1
    | cons b bs => exact ⟨b, bs, rfl⟩
  obtain ⟨N, hN⟩ : ∃ N, N = (b :: bs).length := ⟨_, rfl⟩
  obtain ⟨E, hE⟩ : ∃ E, E = 4 * (N + 1) + (b :: bs).flatten.length := ⟨_, rfl⟩
  have hD : lzvnFork (b :: bs) = (starts (4 * (N + 1)) (b :: bs) ++ [E]).flatMap (toLE 4) ++ (b :: bs).flatten := by
    unfold lzvnFork; simp only [hE, hN]
  have hDl : (lzvnFork (b :: bs)).length = E := by
    rw [hD, List.length_append, length_flatMap_const (toLE 4) 4 (by simp)]
    simp only [List.length_append, length_starts, List.length_singleton]
    omega
  rw [hDl]
  rw [hDl] at hlen
  obtain ⟨D, hDD⟩ : ∃ D, D = lzvnFork (b :: bs) := ⟨_, rfl⟩
  rw [← hDD] at hD hDl ⊢
  rw [← hN] at h1 h2 ⊢
  have hbl : bs.length + 1 = N := by rw [hN]; simp
  have htake : D.take 4 = toLE 4 (4 * (N + 1)) := by
    rw [hD]
    simp only [starts, List.cons_append, List.flatMap_cons, List.append_assoc]
    rw [List.take_left' (by simp)]
  unfold getOffsets
  rw [readInto0, ok_bind, htake, require_true (by simp), ok_bind]
  have hv4 : leNat (toLE 4 (4 * (N + 1))) = 4 * (N + 1) := leNat_toLE _ _ (by omega)
  have hneq : ¬ (toLE 4 (4 * (N + 1)) = [0x66, 0x70, 0x6d, 0x63]) := by
    intro h
    rw [h] at hv4
    have : leNat [0x66, 0x70, 0x6d, 0x63] = 1668116582 := by decide
    omega
  rw [if_neg hneq, if_neg (show ¬ methodLzvn = methodDeflate by decide), if_pos rfl]
  simp only [hv4]
  rw [require_true (by unfold bufferSize blockSize; omega), ok_bind, show 4 * (N + 1) / 4 = N + 1 by omega]
  have hmono := starts_mono (4 * (N + 1)) b bs hb
  have hvs : readTable D false (N + 1) (4 * (N + 1)) 4 4 0 = ok (4 * (N + 1) :: (starts (4 * (N + 1) + b.length) bs ++ [E])) := by
    refine readTable_of D false (N + 1) (4 * (N + 1)) 4 0 4 _ rfl ?_ (by omega) ?_ ?_ (by omega) ?_ (by omega) ?_ ?_
    · simp [length_starts]; omega
    · unfold bufferSize blockSize; omega
    · rw [hDl]; omega
    · unfold bufferSize blockSize; omega
    · intro i v hv
      have hmem := List.mem_of_getElem? hv
      have hvE : v ≤ E := by
        rw [List.mem_append] at hmem
        rcases hmem with hm | hm
        · have := (starts_le hm).2
          simp only [List.flatten_cons, List.length_append] at hE
          omega
        · simp at hm; omega
      refine ⟨by omega, by omega, ?_⟩
      have := flatMap_chunk (toLE 4) 4 (by simp) (starts (4 * (N + 1)) (b :: bs) ++ [E]) (b :: bs).flatten (i + 1) v
        (by simpa [starts] using hv)
      rw [← hD] at this
      simp only [Bool.false_eq_true, if_false, Nat.sub_zero]
      rw [← this]
      congr 2
      omega
    · rw [hE]; exact hmono
  rw [hvs, ok_bind]
  have hlast : (4 * (N + 1) :: (starts (4 * (N + 1) + b.length) bs ++ [E])).getLast? = some E := by
    rw [← List.cons_append, List.getLast?_append]; simp
  rw [hlast, ofMem_some, ok_bind, hDl, require_true (by omega), ok_bind, if_neg (by decide), Nat.mod_eq_of_lt hlen]
  simp [starts]

/-! ## zlib -/

theorem starts_shift (base c : Nat) (bs : List Bytes) (i v : Nat) (h : (starts (base + c) bs)[i]? = some v) :
    c ≤ v ∧ (starts base bs)[i]? = some (v - c) := by
  have hi : i < bs.length := by
    have := (List.getElem?_eq_some_iff.1 h).1
    rwa [length_starts] at this
  rw [starts_get _ _ _ hi] at h ⊢
  cases h
  exact ⟨by omega, by congr 1; omega⟩

theorem length_zlibFork (head size : Bytes) (sizes : List Nat) (blocks : List Bytes) (hh : head.length = 252) (hs : size.length = 4)
    (hz : sizes.length = blocks.length) :
    (zlibFork head size sizes blocks).length = 264 + 8 * blocks.length + blocks.flatten.length := by
  unfold zlibFork
  simp only [List.length_append, length_toLE]
  rw [length_flatMap_const (fun p : Nat × Nat => toLE 4 p.1 ++ toLE 4 p.2) 8 (by simp), List.length_zip, length_starts, hz, hh, hs]
  simp
  omega

theorem forkCount_zlibFork (head size : Bytes) (sizes : List Nat) (blocks : List Bytes) (hh : head.length = 252) (hs : size.length = 4)
    (hn : blocks.length < 2 ^ 32) : forkCount (zlibFork head size sizes blocks) = blocks.length := by
  unfold forkCount zlibFork
  rw [show (260 : Nat) = 4 + (252 + 4) from rfl, ← List.drop_drop, ← List.drop_drop, List.drop_left' (by rfl),
    List.drop_left' hh, List.drop_left' hs, List.take_left' (by simp), leNat_toLE _ _ (by omega)]

theorem zlib_drop264 (head size : Bytes) (sizes : List Nat) (blocks : List Bytes) (hh : head.length = 252) (hs : size.length = 4) :
    (zlibFork head size sizes blocks).drop 264 =
      (List.zip (starts (4 + 8 * blocks.length) blocks) sizes).flatMap (fun p => toLE 4 p.1 ++ toLE 4 p.2) ++ blocks.flatten := by
  unfold zlibFork
  rw [show (264 : Nat) = 4 + (252 + (4 + 4)) from rfl, ← List.drop_drop, ← List.drop_drop, ← List.drop_drop, List.drop_left' (by rfl),
    List.drop_left' hh, List.drop_left' hs, List.drop_left' (by simp)]

theorem zlib_offsets (head size : Bytes) (sizes : List Nat) (blocks : List Bytes) (hh : head.length = 252) (hs : size.length = 4)
    (hz : sizes.length = blocks.length) (h1 : 1 ≤ blocks.length) (h2 : blocks.length ≤ 8159)
    (hb : ∀ b ∈ blocks, b.length ≤ bufferSize) (hlen : (zlibFork head size sizes blocks).length < 2 ^ 32) :
    getOffsets methodDeflate (zlibFork head size sizes blocks) = ok (starts (264 + 8 * blocks.length) blocks ++
      [(zlibFork head size sizes blocks).length]) := by
  have hDl := length_zlibFork head size sizes blocks hh hs hz
  have hcnt := forkCount_zlibFork head size sizes blocks hh hs (by omega)
  have hd264 := zlib_drop264 head size sizes blocks hh hs
  have htake : (zlibFork head size sizes blocks).take 4 = [0, 0, 1, 0] := by
    unfold zlibFork; rw [List.take_left' (by rfl)]
  generalize zlibFork head size sizes blocks = D at *
  obtain ⟨b, bs, rfl⟩ : ∃ b bs, blocks = b :: bs := by
    cases blocks with
    | nil => simp at h1
    | cons b bs => exact ⟨b, bs, rfl⟩
  obtain ⟨s, ss, rfl⟩ : ∃ s ss, sizes = s :: ss := by
    cases sizes with
    | nil => simp at hz
    | cons s ss => exact ⟨s, ss, rfl⟩
  obtain ⟨N, hN⟩ : ∃ N, N = (b :: bs).length := ⟨_, rfl⟩
  rw [← hN] at h1 h2 hDl hcnt hd264 hz ⊢
  have hbl : bs.length + 1 = N := by rw [hN]; simp
  unfold getOffsets
  rw [readInto0, ok_bind, htake, require_true (by simp), ok_bind, if_neg (by decide), if_pos rfl, require_true (by decide), ok_bind,
    hdr_read, ok_bind, require_true (by simp; omega), ok_bind, hdr_field (by omega) (by omega) (by omega), ok_bind]
  rw [show leNat ((D.drop 260).take 4) = N from hcnt, require_true (by omega), ok_bind, hdr_field (by omega) (by omega) (by omega), ok_bind]
  have hfirst : (D.drop 264).take 4 = toLE 4 (4 + 8 * N) := by
    rw [hd264]
    simp only [starts, List.zip_cons_cons, List.flatMap_cons, List.append_assoc]
    rw [List.take_left' (by simp)]
  rw [hfirst, leNat_toLE _ _ (by omega)]
  have hmono := starts_mono (264 + 8 * N) b bs hb
  have hE : 264 + 8 * N + (b :: bs).flatten.length = D.length := by omega
  rw [hE] at hmono
  have hvs : readTable D true N (4 + 8 * N) 268 8 (0x100 + 4) = ok ((4 + 8 * N + (0x100 + 4)) :: starts (264 + 8 * N + b.length) bs) := by
    refine readTable_of D true N (4 + 8 * N) 268 (0x100 + 4) 8 _ rfl ?_ (by omega) ?_ ?_ (by omega) ?_ (by omega) ?_ ?_
    · simp [length_starts]; omega
    · unfold bufferSize blockSize; omega
    · rw [hDl]; omega
    · unfold bufferSize blockSize; omega
    · intro i v hv
      have hle := starts_le (List.mem_of_getElem? hv)
      simp only [List.flatten_cons, List.length_append] at hDl
      refine ⟨by omega, by omega, ?_⟩
      have hv' : (starts (264 + 8 * N) (b :: bs))[i + 1]? = some v := by simpa [starts] using hv
      rw [show 264 + 8 * N = (4 + 8 * N) + 260 by omega] at hv'
      obtain ⟨_, hv'⟩ := starts_shift _ _ _ _ _ hv'
      have hi : i + 1 < (s :: ss).length := by
        have := (List.getElem?_eq_some_iff.1 hv).1
        rw [length_starts] at this
        omega
      have hp : (List.zip (starts (4 + 8 * N) (b :: bs)) (s :: ss))[i + 1]? = some (v - 260, (s :: ss)[i + 1]) := by
        rw [List.getElem?_zip_eq_some]
        exact ⟨hv', List.getElem?_eq_getElem hi⟩
      have := flatMap_chunk (fun p : Nat × Nat => toLE 4 p.1 ++ toLE 4 p.2) 8 (by simp) _ (b :: bs).flatten (i + 1) _ hp
      rw [← hd264] at this
      have h4 := congrArg (List.take 4) this
      rw [List.take_take, List.drop_drop, List.take_left' (by simp)] at h4
      simp only [if_true]
      rw [show (0x100 + 4 : Nat) = 260 from rfl, ← h4]
      congr 2
      omega
    · rw [show 4 + 8 * N + (0x100 + 4) = 264 + 8 * N by omega]
      exact hmono.left
  rw [hvs, ok_bind]
  obtain ⟨z, hz'⟩ : ∃ z, ((4 + 8 * N + (0x100 + 4)) :: starts (264 + 8 * N + b.length) bs).getLast? = some z :=
    ⟨_, List.getLast?_eq_some_getLast (by simp)⟩
  rw [hz', ofMem_some, ok_bind]
  have hzle : z ≤ D.length ∧ D.length - z ≤ bufferSize := by
    rw [show 4 + 8 * N + (0x100 + 4) = 264 + 8 * N by omega] at hz'
    rw [List.getLast?_eq_getElem?] at hz'
    refine hmono.get (starts (264 + 8 * N + b.length) bs).length z D.length ?_ ?_
    · rw [← List.cons_append, List.getElem?_append_left (by simp)]
      simpa using hz'
    · rw [← List.cons_append, List.getElem?_append_right (by simp)]
      simp
  rw [require_true (by omega), ok_bind, if_neg (by decide), Nat.mod_eq_of_lt hlen]
  simp [starts]
  omega

theorem inline_offsets (method : Nat) (head block : Bytes) (hm : method ≠ methodUnknown5) (hh : head.length = 12)
    (hb : (inlineAttribute head block).length ≤ bufferSize) :
    getOffsets method (inlineAttribute head block) = ok [16, (inlineAttribute head block).length] := by
  have hl : (inlineAttribute head block).length = 16 + block.length := by unfold inlineAttribute; simp [hh]; omega
  have htake : (inlineAttribute head block).take 4 = [0x66, 0x70, 0x6d, 0x63] := by
    unfold inlineAttribute; rw [List.take_left' (by rfl)]
  generalize inlineAttribute head block = D at *
  unfold getOffsets
  rw [readInto0, ok_bind, htake, require_true (by simp), ok_bind, if_pos rfl, require_true (by omega), ok_bind]
  simp only [pure_eq, ok_bind, List.getLast?_singleton, ofMem_some]
  unfold bufferSize blockSize at hb
  rw [require_true (by unfold bufferSize blockSize; omega), ok_bind, if_neg hm, Nat.mod_eq_of_lt (by omega)]
  rfl

end Compressed
end Verif
