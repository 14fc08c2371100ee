import Verif.Lemmas.Compression
/-! Lemmas about the block offset table -/
namespace Verif
open Res Spec
namespace Compressed

/-- offsets that follow `p`: not decreasing, in steps of at most the buffer size -/
def Mono (p : Nat) : List Nat → Prop
  | [] => True
  | v :: r => p ≤ v ∧ v - p ≤ bufferSize ∧ Mono v r

theorem Mono.get {p : Nat} {l : List Nat} (h : Mono p l) (i a b : Nat) (ha : (p :: l)[i]? = some a) (hb : (p :: l)[i + 1]? = some b) :
    a ≤ b ∧ b - a ≤ bufferSize := by
  induction l generalizing p i with
  | nil => simp at hb
  | cons v r ih =>
    obtain ⟨h1, h2, h3⟩ := h
    cases i with
    | zero => simp at ha hb; subst ha; subst hb; exact ⟨h1, h2⟩
    | succ i => exact ih h3 i (by simpa using ha) (by simpa using hb)

theorem Mono.append {p : Nat} {l : List Nat} {z : Nat} (h : Mono p l) (hz : ∀ a, (p :: l).getLast? = some a → a ≤ z ∧ z - a ≤ bufferSize) :
    Mono p (l ++ [z]) := by
  induction l generalizing p with
  | nil => have := hz p (by simp); exact ⟨this.1, this.2, trivial⟩
  | cons v r ih =>
    obtain ⟨h1, h2, h3⟩ := h
    refine ⟨h1, h2, ih h3 ?_⟩
    intro a ha
    exact hz a (by rw [List.getLast?_cons_cons]; exact ha)

theorem offsetsLoop_spec (deflate : Bool) (base : Nat) (k : Nat) (descs : Bytes) (p : Nat)
    (hl : k = 0 ∨ (k - 1) * (if deflate then 8 else 4) + 4 ≤ descs.length) :
    offsetsLoop deflate base k descs p = err ∨ ∃ r, offsetsLoop deflate base k descs p = ok r ∧ r.length = k ∧ Mono p r := by
  induction k generalizing descs p with
  | zero => exact Or.inr ⟨[], rfl, rfl, trivial⟩
  | succ k ih =>
    have hl' : k * (if deflate then 8 else 4) + 4 ≤ descs.length := by simpa using hl
    rw [offsetsLoop, rdLE_le (by omega), ok_bind]
    simp only
    generalize (leNat ((descs.drop 0).take 4) + base) % 2 ^ 32 = v
    by_cases hv : ¬ (p > v ∨ v - p > bufferSize)
    case neg => rw [require_false hv]; exact Or.inl rfl
    rw [require_true hv, ok_bind]
    have hnext : k = 0 ∨ (k - 1) * (if deflate then 8 else 4) + 4 ≤ (descs.drop (if deflate then 8 else 4)).length := by
      rcases k with _ | k
      · exact Or.inl rfl
      · right
        simp only [List.length_drop]
        cases deflate <;> simp at hl' ⊢ <;> omega
    rcases ih _ v hnext with e | ⟨r, e, hr, hm⟩
    · rw [e]; exact Or.inl rfl
    · rw [e]
      refine Or.inr ⟨v :: r, rfl, by simp [hr], ?_, ?_, hm⟩
      · omega
      · omega

theorem readTable_spec (D : Bytes) (deflate : Bool) (n first at_ base : Nat) (dsize : Nat) (hds : dsize = if deflate then 8 else 4)
    (hfit : at_ + min ((n - 1) * dsize) (D.length - at_) ≤ bufferSize ∨ n = 0) :
    readTable D deflate n first at_ dsize base = err ∨ ∃ f r, readTable D deflate n first at_ dsize base = ok (f :: r) ∧ r.length = n - 1 ∧
      1 ≤ n ∧ Mono f r := by
  unfold readTable
  by_cases h1 : ¬ n > 128 * 1024 * 1024 / 4 - 1
  case neg => rw [require_false h1]; exact Or.inl rfl
  rw [require_true h1, ok_bind]
  have hd : dsize = 8 ∨ dsize = 4 := by cases deflate <;> simp_all
  by_cases h0 : n = 0
  · subst h0
    rw [if_pos rfl, if_neg (by omega)]
    have e : readInto D at_ (2 ^ 64 - dsize) at_ = err := by
      unfold readInto
      rw [if_pos (by omega)]
    simp only [e, err_bind, true_or]
  have hrs : (n - 1) * dsize ≤ 2 ^ 63 - 1 := by
    rcases hd with rfl | rfl <;> omega
  rw [if_neg h0]
  have hfit : at_ + min ((n - 1) * dsize) (D.length - at_) ≤ bufferSize := by omega
  have hread : readInto D at_ ((n - 1) * dsize) at_ = ok ((D.drop at_).take ((n - 1) * dsize)) := by
    unfold readInto
    rw [if_neg (by omega), if_neg]
    simp only [List.length_take, List.length_drop]
    omega
  simp only [hread, ok_bind]
  by_cases h2 : ((D.drop at_).take ((n - 1) * dsize)).length = (n - 1) * dsize
  case neg => rw [require_false h2]; exact Or.inl rfl
  rw [require_true h2, ok_bind]
  by_cases h3 : ¬ (first ≤ dsize ∨ first ≥ bufferSize)
  case neg => rw [require_false h3]; exact Or.inl rfl
  rw [require_true h3, ok_bind]
  generalize (first + base) % 2 ^ 32 = f
  have hlen : n - 1 = 0 ∨ (n - 1 - 1) * (if deflate then 8 else 4) + 4 ≤
      (if deflate then ((D.drop at_).take ((n - 1) * dsize)).drop 4 else (D.drop at_).take ((n - 1) * dsize)).length := by
    by_cases hn1 : n - 1 = 0
    · exact Or.inl hn1
    · right
      cases deflate <;> simp only [if_true, Bool.false_eq_true, if_false, List.length_drop] at hds ⊢ <;> rw [h2] <;> subst hds <;> omega
  rcases offsetsLoop_spec deflate base (n - 1) _ f hlen with e | ⟨r, e, hr, hm⟩
  · rw [e]; exact Or.inl rfl
  · rw [e]
    exact Or.inr ⟨f, r, rfl, hr, by omega, hm⟩

/-- the number of blocks in the header of a zlib resource fork -/
def forkCount (D : Bytes) : Nat := leNat ((D.drop 260).take 4)

theorem readInto0 (D : Bytes) : readInto D 0 4 0 = ok (D.take 4) := by
  rw [readInto_le (by unfold bufferSize blockSize; omega)]; simp

theorem hdr_read (D : Bytes) : readInto D 4 (0x100 + 16 - 4) 4 = ok ((D.drop 4).take 268) := by
  unfold readInto
  rw [if_neg (by omega), if_neg]
  simp only [List.length_take, List.length_drop]
  unfold bufferSize blockSize; omega

theorem hdr_field {D : Bytes} {off : Nat} (h : off + 4 ≤ 272) (h4 : 4 ≤ off) (hl : 272 ≤ D.length) :
    rdLE ((D.drop 4).take 268) (off - 4) 4 = ok (leNat ((D.drop off).take 4)) := by
  rw [rdLE_le (by simp; omega), List.drop_take, List.drop_drop, List.take_take]
  congr 3 <;> (try congr 1) <;> omega

/-- the first stage of `getOffsets` -/
theorem getOffsets_spec (method : Nat) (D : Bytes)
    (hfit : method = methodDeflate → D.length ≤ bufferSize ∨ forkCount D ≤ 8159 ∨ 128 * 1024 * 1024 / 4 - 1 < forkCount D) :
    getOffsets method D = err ∨ ∃ f r, getOffsets method D = ok (f :: (r ++ [D.length % 2 ^ 32])) ∧ Mono f (r ++ [D.length]) := by
  unfold getOffsets
  rw [readInto0, ok_bind]
  by_cases hsig : (D.take 4).length = 4
  case neg => rw [require_false hsig]; exact Or.inl rfl
  have hlen : 4 ≤ D.length := by simp at hsig; omega
  rw [require_true hsig, ok_bind]
  generalize hX : (if D.take 4 = [0x66, 0x70, 0x6d, 0x63] then (do
      require (¬ D.length > bufferSize)
      return [16]) else if method = methodDeflate then (do
      require (beNat (D.take 4) = 0x100)
      let hdr ← readInto D 4 (0x100 + 16 - 4) 4
      require (hdr.length = 0x100 + 16 - 4)
      let n ← rdLE hdr (260 - 4) 4
      require (¬ n > (2 ^ 32 - 1) / 8)
      let first ← rdLE hdr (264 - 4) 4
      readTable D true n first 268 8 (0x100 + 4)) else if method = methodLzvn then (do
      let first := leNat (D.take 4)
      require (¬ (first ≤ 4 ∨ first ≥ bufferSize))
      readTable D false (first / 4) first 4 4 0) else readTable D false 0 0 0 0 0 : Res (List Nat)) = X
  have hX' : X = err ∨ ∃ f r, X = ok (f :: r) ∧ Mono f r ∧ (method = methodUnknown5 → D.length ≤ bufferSize) := by
    subst hX
    by_cases hf : D.take 4 = [0x66, 0x70, 0x6d, 0x63]
    · rw [if_pos hf]
      by_cases hb : ¬ D.length > bufferSize
      · rw [require_true hb]; exact Or.inr ⟨16, [], rfl, trivial, fun _ => by omega⟩
      · rw [require_false hb]; exact Or.inl rfl
    rw [if_neg hf]
    by_cases hm : method = methodDeflate
    · rw [if_pos hm]
      by_cases h1 : beNat (D.take 4) = 0x100
      case neg => rw [require_false h1]; exact Or.inl rfl
      rw [require_true h1, ok_bind, hdr_read, ok_bind]
      by_cases h2 : ((D.drop 4).take 268).length = 0x100 + 16 - 4
      case neg => rw [require_false h2]; exact Or.inl rfl
      have hl : 272 ≤ D.length := by simp at h2; omega
      rw [require_true h2, ok_bind, hdr_field (by omega) (by omega) hl, ok_bind]
      by_cases h3 : ¬ leNat ((D.drop 260).take 4) > (2 ^ 32 - 1) / 8
      case neg => rw [require_false h3]; exact Or.inl rfl
      rw [require_true h3, ok_bind, hdr_field (by omega) (by omega) hl, ok_bind]
      by_cases hbig : 128 * 1024 * 1024 / 4 - 1 < forkCount D
      · unfold readTable
        rw [require_false (by unfold forkCount at hbig; omega)]
        exact Or.inl rfl
      · rcases readTable_spec D true (leNat ((D.drop 260).take 4)) (leNat ((D.drop 264).take 4)) 268 (0x100 + 4) 8 rfl
          (by have := hfit hm; unfold forkCount bufferSize blockSize at *; omega) with e | ⟨f, r, e, hr, hn, hmono⟩
        · exact Or.inl e
        · exact Or.inr ⟨f, r, e, hmono, fun h => absurd (hm.symm.trans h) (by decide)⟩
    rw [if_neg hm]
    by_cases hz : method = methodLzvn
    · rw [if_pos hz]
      simp only
      by_cases h1 : ¬ (leNat (D.take 4) ≤ 4 ∨ leNat (D.take 4) ≥ bufferSize)
      case neg => rw [require_false h1]; exact Or.inl rfl
      rw [require_true h1, ok_bind]
      rcases readTable_spec D false (leNat (D.take 4) / 4) (leNat (D.take 4)) 4 0 4 rfl
        (by unfold bufferSize blockSize at *; omega) with e | ⟨f, r, e, hr, hn, hmono⟩
      · exact Or.inl e
      · exact Or.inr ⟨f, r, e, hmono, fun h => absurd (hz.symm.trans h) (by decide)⟩
    · rw [if_neg hz]
      left
      unfold readTable
      rw [require_true (by omega), ok_bind, if_pos rfl, if_pos rfl]
      have e : readInto D 0 0 0 = ok [] := by rw [readInto_le (by omega)]; simp
      simp only [e, ok_bind]
      rw [require_true (by simp), ok_bind, require_false (by omega)]
      rfl
  rcases hX' with e | ⟨f, r, e, hmono, hu⟩
  · rw [e]; exact Or.inl rfl
  · subst e
    have hx : (f :: r).getLast? = some ((f :: r).getLast (by simp)) := List.getLast?_eq_some_getLast (by simp)
    simp only [ok_bind, hx, ofMem_some]
    generalize hp : (f :: r).getLast (by simp) = p
    rw [hp] at hx
    by_cases h4 : ¬ (p > D.length ∨ D.length - p > bufferSize)
    case neg => rw [require_false h4]; exact Or.inl rfl
    rw [require_true h4, ok_bind]
    have hm2 : Mono f (r ++ [D.length]) := hmono.append fun a ha => by
      rw [hx] at ha; cases ha; omega
    by_cases h5 : method = methodUnknown5
    · rw [if_pos h5]
      have hDb := hu h5
      by_cases h6 : ¬ D.length > 2 ^ 63 - 1
      case neg => rw [require_false h6]; exact Or.inl rfl
      rw [require_true h6, ok_bind, readInto_le (by omega), ok_bind]
      by_cases h7 : ((D.drop 16).take (D.length - 16)).length = D.length - 16
      case neg => rw [require_false h7]; exact Or.inl rfl
      rw [require_true h7, ok_bind]
      exact Or.inr ⟨f, r, rfl, hm2⟩
    · rw [if_neg h5]
      exact Or.inr ⟨f, r, rfl, hm2⟩

theorem Mono.steps {f : Nat} {r : List Nat} {z : Nat} (h : Mono f (r ++ [z])) (z' : Nat) (hz : z' ≤ z) : Steps (f :: (r ++ [z'])) := by
  intro i a b ha hb
  by_cases hi : i + 1 < (f :: r).length
  · rw [← List.cons_append, List.getElem?_append_left (by omega)] at ha
    rw [← List.cons_append, List.getElem?_append_left hi] at hb
    refine (h.get i a b ?_ ?_).2
    · rw [← List.cons_append, List.getElem?_append_left (by omega)]; exact ha
    · rw [← List.cons_append, List.getElem?_append_left hi]; exact hb
  · have hlt : i + 1 < (f :: (r ++ [z'])).length := (List.getElem?_eq_some_iff.1 hb).1
    have hi' : i + 1 = (f :: r).length := by simp at hlt hi ⊢; omega
    have hb' : b = z' := by
      rw [← List.cons_append, hi', List.getElem?_append_right (by omega)] at hb
      simpa using hb.symm
    have := (h.get i a z ?_ ?_).2
    · omega
    · rw [← List.cons_append, List.getElem?_append_left (by omega)] at ha ⊢; exact ha
    · rw [← List.cons_append, hi', List.getElem?_append_right (by omega)]; simp

end Compressed
end Verif
