import Verif.Model.Huffman
import Verif.Spec.Huffman
import Verif.Lemmas.BitStream
namespace Verif
open Res Spec

/-! ## bit level helpers -/

theorem BitStream.getBit_cons (s : BitStream) (hw : s.WF) (x : Bool) (r : List Bool) (h : s.bits = x :: r) :
    ∃ s', s.getValue 1 = ok (x.toNat, s') ∧ s'.bits = r ∧ s'.data = s.data ∧ s'.WF := by
  have := (BitStream.getValue_spec s 1 hw (by omega) (by omega)).1 (by simp [h])
  rw [h] at this
  simpa [bitsVal] using this

theorem BitStream.getBit_nil (s : BitStream) (hw : s.WF) (h : s.bits = []) : s.getValue 1 = err :=
  (BitStream.getValue_spec s 1 hw (by omega) (by omega)).2 (by simp [h])

@[simp] theorem length_msbBits (n v : Nat) : (msbBits n v).length = n := by
  induction n with
  | zero => rfl
  | succ n ih => simp [msbBits, ih]

theorem shiftl_or_bit (c : Nat) (x : Bool) : (c <<< 1) ||| x.toNat = 2 * c + x.toNat := by
  have : x.toNat < 2 ^ 1 := by cases x <;> decide
  rw [← Nat.shiftLeft_add_eq_or_of_lt this, Nat.shiftLeft_eq]; omega

/-! ## ranks -/

theorem exists_rank (l : List Nat) (b k : Nat) (h : k < l.count b) :
    ∃ i, ∃ hi : i < l.length, l[i] = b ∧ (l.take i).count b = k := by
  induction l generalizing k with
  | nil => simp at h
  | cons x xs ih =>
    by_cases hx : x = b
    · subst hx
      cases k with
      | zero => exact ⟨0, by simp, rfl, by simp⟩
      | succ k =>
        rw [List.count_cons_self] at h
        obtain ⟨i, hi, h1, h2⟩ := ih k (by omega)
        exact ⟨i + 1, by simp; omega, by simpa using h1, by simp [h2]⟩
    · rw [List.count_cons_of_ne hx] at h
      obtain ⟨i, hi, h1, h2⟩ := ih k h
      refine ⟨i + 1, by simp; omega, by simpa using h1, ?_⟩
      rw [List.take_succ_cons, List.count_cons_of_ne hx, h2]

theorem rank_lt (l : List Nat) (i : Nat) (hi : i < l.length) : (l.take i).count l[i] < l.count l[i] := by
  have h : ∀ b, l.count b = (l.take i).count b + (l.drop i).count b := by
    intro b
    rw [← List.count_append, List.take_append_drop]
  rw [h, List.drop_eq_getElem_cons hi, List.count_cons_self]
  omega

theorem rank_mono (l : List Nat) (b i j : Nat) (h : i ≤ j) : (l.take i).count b ≤ (l.take j).count b := by
  have : (l.take i) = (l.take j).take i := by rw [List.take_take]; congr 1; omega
  rw [this]
  exact (List.take_sublist _ _).count_le _

theorem rank_succ (l : List Nat) (i : Nat) (hi : i < l.length) (b : Nat) :
    (l.take (i + 1)).count b = (l.take i).count b + (if l[i] = b then 1 else 0) := by
  rw [List.take_succ_eq_append_getElem hi, List.count_append, List.count_singleton]
  by_cases h : l[i] = b <;> simp [h]

/-! ## canonical code arithmetic -/

/-- index of the first symbol of size `b` in the sorted symbol table -/
def firstIdx (lens : List Nat) : Nat → Nat
  | 0 => 0
  | b + 1 => firstIdx lens b + blCount lens b

theorem nextCode_ge (lens : List Nat) (b d : Nat) :
    (nextCode lens b + blCount lens b) * 2 ^ (d + 1) ≤ nextCode lens (b + d + 1) := by
  induction d with
  | zero => simp [nextCode]; omega
  | succ d ih =>
    rw [show b + (d + 1) + 1 = (b + d + 1) + 1 by omega, nextCode, Nat.pow_succ, ← Nat.mul_assoc]
    omega

theorem firstIdx_mono (lens : List Nat) (b c : Nat) (h : b < c) :
    firstIdx lens b + blCount lens b ≤ firstIdx lens c := by
  induction c with
  | zero => omega
  | succ c ih =>
    simp only [firstIdx]
    by_cases hc : b = c
    · subst hc; omega
    · have := ih (by omega); omega

theorem firstIdx_le_length (lens : List Nat) (b : Nat) :
    firstIdx lens b ≤ (lens.filter (fun x => decide (0 < x ∧ x < b))).length := by
  induction b with
  | zero => simp [firstIdx]
  | succ b ih =>
    simp only [firstIdx]
    have key : (lens.filter (fun x => decide (0 < x ∧ x < b))).length + blCount lens b
        ≤ (lens.filter (fun x => decide (0 < x ∧ x < b + 1))).length := by
      unfold blCount
      split
      · rename_i hb
        subst hb
        have : (lens.filter (fun x => decide (0 < x ∧ x < 0))) = [] := by
          rw [List.filter_eq_nil_iff]; intro a _; simp
        rw [this]; simp
      · rename_i hb
        clear ih
        induction lens with
        | nil => simp
        | cons x xs ih =>
          rw [List.count_cons]
          simp only [List.filter_cons]
          by_cases h1 : 0 < x ∧ x < b
          · have h2 : 0 < x ∧ x < b + 1 := by omega
            have h3 : ¬ x = b := by omega
            simp [h1, h2, h3] at ih ⊢; omega
          · by_cases h3 : x = b
            · subst h3
              have h2 : 0 < x ∧ x < x + 1 := by omega
              simp [h2] at ih ⊢; omega
            · have h2 : ¬ (0 < x ∧ x < b + 1) := by omega
              simp [h1, h2, h3] at ih ⊢; omega
    omega

theorem firstIdx_add_le (lens : List Nat) (b : Nat) : firstIdx lens b + blCount lens b ≤ lens.length := by
  have h := firstIdx_le_length lens (b + 1)
  have := List.length_filter_le (fun x => decide (0 < x ∧ x < b + 1)) lens
  simp only [firstIdx] at h
  omega

/-! ## build -/

namespace HTree

/-- the tree represents the canonical code for `lens` -/
structure For (t : HTree) (lens : List Nat) : Prop where
  sizes : ∀ l ∈ lens, l ≤ t.maxSize
  counts : ∀ b, 0 < b → b ≤ t.maxSize → t.counts[b]? = some (blCount lens b)
  kraft : NotOversubscribed lens t.maxSize
  symbols : ∀ i l, lens[i]? = some l → 0 < l →
    t.symbols[firstIdx lens l + (lens.take i).count l]? = some i

theorem countLoop_spec (max : Nat) (sizes counts : List Nat) (hl : counts.length = max + 1) :
    ((∀ l ∈ sizes, l ≤ max) → ∃ c', countLoop max sizes counts = ok c' ∧ c'.length = max + 1 ∧
      ∀ b, b ≤ max → c'[b]? = some (counts[b]?.getD 0 + sizes.count b)) ∧
    ((∃ l ∈ sizes, max < l) → countLoop max sizes counts = err) := by
  induction sizes generalizing counts with
  | nil =>
    refine ⟨fun _ => ⟨counts, rfl, hl, ?_⟩, by simp⟩
    intro b hb
    have : b < counts.length := by omega
    simp [this]
  | cons x xs ih =>
    simp only [countLoop]
    by_cases hx : x > max
    · simp only [hx, if_true]
      refine ⟨fun h => ?_, fun _ => trivial⟩
      have := h x (by simp); omega
    · have hlt : x < counts.length := by omega
      simp only [hx, if_false, List.getElem?_eq_getElem hlt, ofMem_some, ok_bind]
      have := ih (counts.set x (counts[x] + 1)) (by simpa using hl)
      refine ⟨fun h => ?_, fun h => this.2 ?_⟩
      · obtain ⟨c', h1, h2, h3⟩ := this.1 (fun l hl => h l (by simp [hl]))
        refine ⟨c', h1, h2, ?_⟩
        intro b hb
        rw [h3 b hb]
        by_cases hbx : b = x
        · subst hbx
          simp [hlt]; omega
        · rw [List.getElem?_set_ne (by omega), List.count_cons_of_ne (by omega)]
      · obtain ⟨l, hl1, hl2⟩ := h
        simp only [List.mem_cons] at hl1
        rcases hl1 with rfl | hl1
        · omega
        · exact ⟨l, hl1, hl2⟩

theorem leftLoop_spec (max : Nat) (lens counts : List Nat)
    (hc : ∀ b, 0 < b → b ≤ max → counts[b]? = some (blCount lens b)) (k left : Nat) (hk : k ≤ max)
    (hinv : left + (nextCode lens (max - k) + blCount lens (max - k)) = 2 ^ (max - k)) :
    ((∀ b, max - k < b → b ≤ max → nextCode lens b + blCount lens b ≤ 2 ^ b) → leftLoop max counts k left = ok ()) ∧
    ((∃ b, max - k < b ∧ b ≤ max ∧ 2 ^ b < nextCode lens b + blCount lens b) → leftLoop max counts k left = err) := by
  induction k generalizing left with
  | zero => exact ⟨fun _ => rfl, by rintro ⟨b, h1, h2, _⟩; omega⟩
  | succ k ih =>
    have hb : max + 1 - (k + 1) = max - k := by omega
    have hpred : max - k = (max - (k + 1)) + 1 := by omega
    have hn : nextCode lens (max - k) = 2 * (nextCode lens (max - (k + 1)) + blCount lens (max - (k + 1))) := by
      rw [hpred, nextCode]
    have hp : 2 ^ (max - k) = 2 * 2 ^ (max - (k + 1)) := by rw [hpred, Nat.pow_succ]; omega
    simp only [leftLoop, hb, hc (max - k) (by omega) (by omega), ofMem_some, ok_bind]
    by_cases hlt : 2 * left < blCount lens (max - k)
    · simp only [hlt, if_true]
      refine ⟨fun h => ?_, fun _ => trivial⟩
      have := h (max - k) (by omega) (by omega)
      omega
    · simp only [hlt, if_false]
      have := ih (2 * left - blCount lens (max - k)) (by omega) (by omega)
      refine ⟨fun h => this.1 (fun b h1 h2 => h b (by omega) h2), ?_⟩
      rintro ⟨b, h1, h2, h3⟩
      apply this.2
      by_cases hbk : b = max - k
      · subst hbk; omega
      · exact ⟨b, by omega, h2, h3⟩

theorem offsetLoop_spec (max : Nat) (lens counts : List Nat)
    (hc : ∀ b, 0 < b → b ≤ max → counts[b]? = some (blCount lens b)) (k b : Nat) (hb : 0 < b) (hk : b + k ≤ max) :
    ∃ offs, offsetLoop counts k b (firstIdx lens b) = ok offs ∧ offs.length = k ∧
      ∀ j, j < k → offs[j]? = some (firstIdx lens (b + j + 1)) := by
  induction k generalizing b with
  | zero => exact ⟨[], rfl, rfl, by omega⟩
  | succ k ih =>
    obtain ⟨offs, h1, h2, h3⟩ := ih (b + 1) (by omega) (by omega)
    have hf : firstIdx lens b + blCount lens b = firstIdx lens (b + 1) := rfl
    refine ⟨firstIdx lens (b + 1) :: offs, ?_, by simp [h2], ?_⟩
    · simp only [offsetLoop, hc b hb (by omega), ofMem_some, ok_bind, hf, h1, pure_eq]
    · intro j hj
      cases j with
      | zero => rfl
      | succ j => rw [List.getElem?_cons_succ, h3 j (by omega)]; congr 2; omega

theorem symbolLoop_spec (max : Nat) (lens : List Nat) (hs : ∀ l ∈ lens, l ≤ max) (m : Nat) (hm : m ≤ lens.length)
    (offsets symbols : List Nat) (hlen : lens.length ≤ symbols.length)
    (ho : ∀ b, 0 < b → b ≤ max → offsets[b]? = some (firstIdx lens b + (lens.take m).count b))
    (hsym : ∀ i l, i < m → lens[i]? = some l → 0 < l → symbols[firstIdx lens l + (lens.take i).count l]? = some i) :
    ∃ symbols', symbolLoop lens.length (lens.drop m) m offsets symbols = ok symbols' ∧
      symbols'.length = symbols.length ∧
      ∀ i l, lens[i]? = some l → 0 < l → symbols'[firstIdx lens l + (lens.take i).count l]? = some i := by
  induction hk : lens.length - m generalizing m offsets symbols with
  | zero =>
    have : m = lens.length := by omega
    subst this
    refine ⟨symbols, by simp [symbolLoop], rfl, ?_⟩
    intro i l hi hl
    refine hsym i l ?_ hi hl
    exact (List.getElem?_eq_some_iff.1 hi).1
  | succ k ih =>
    have hlt : m < lens.length := by omega
    rw [List.drop_eq_getElem_cons hlt]
    simp only [symbolLoop]
    by_cases h0 : lens[m] = 0
    · simp only [h0, if_true]
      refine ih (m + 1) (by omega) offsets symbols hlen ?_ ?_ (by omega)
      · intro b hb hbm
        rw [ho b hb hbm, rank_succ lens m hlt, if_neg (by omega)]; rfl
      · intro i l hi hl hl0
        by_cases him : i = m
        · subst him
          rw [List.getElem?_eq_getElem hlt] at hl
          simp at hl; omega
        · exact hsym i l (by omega) hl hl0
    · have hmax := hs _ (List.getElem_mem hlt)
      simp only [h0, if_false, ho lens[m] (by omega) hmax, ofMem_some, ok_bind]
      have hr := rank_lt lens m hlt
      have hbl : blCount lens lens[m] = lens.count lens[m] := by simp [blCount, h0]
      have hfa := firstIdx_add_le lens lens[m]
      rw [if_neg (by omega), if_pos (by omega)]
      have hoff : lens[m] < offsets.length := by
        have := ho lens[m] (by omega) hmax
        exact (List.getElem?_eq_some_iff.1 this).1
      have := ih (m + 1) (by omega) (offsets.set lens[m] (firstIdx lens lens[m] + (lens.take m).count lens[m] + 1))
        (symbols.set (firstIdx lens lens[m] + (lens.take m).count lens[m]) m) (by simpa using hlen) ?_ ?_ (by omega)
      · simpa using this
      · intro b hb hbm
        rw [rank_succ lens m hlt]
        by_cases hbe : lens[m] = b
        · subst hbe
          rw [List.getElem?_set_self hoff]; simp; omega
        · rw [List.getElem?_set_ne hbe, ho b hb hbm]; simp [hbe]
      · intro i l hi hl hl0
        by_cases him : i = m
        · subst him
          rw [List.getElem?_eq_getElem hlt] at hl
          cases hl
          rw [List.getElem?_set_self (by omega)]
        · have hil : i < lens.length := by omega
          rw [List.getElem?_eq_getElem hil] at hl
          cases hl
          rw [List.getElem?_set_ne, hsym i _ (by omega) (List.getElem?_eq_getElem hil) hl0]
          have hri := rank_lt lens i hil
          have hbli : blCount lens lens[i] = lens.count lens[i] := by simp [blCount]; omega
          by_cases hsame : lens[i] = lens[m]
          · have h1 : (lens.take (i + 1)).count lens[m] ≤ (lens.take m).count lens[m] := rank_mono _ _ _ _ (by omega)
            rw [rank_succ lens i hil, if_pos hsame] at h1
            rw [hsame]; omega
          · rcases Nat.lt_or_gt_of_ne hsame with hlt' | hlt'
            · have := firstIdx_mono lens _ _ hlt'
              omega
            · have := firstIdx_mono lens _ _ hlt'
              omega

/-- `build` succeeds exactly for non-empty code size lists that are within range and not over-subscribed,
and then represents the canonical code. -/
theorem build_spec (t : HTree) (lens : List Nat) (hmax : 0 < t.maxSize) (hl : lens.length ≤ 32767)
    (hsym : lens.length ≤ t.symbols.length) :
    ((∃ l ∈ lens, t.maxSize < l) → build t lens = err) ∧
    ((∀ l ∈ lens, l ≤ t.maxSize) →
      (lens.count 0 = lens.length → build t lens = ok none) ∧
      (lens.count 0 ≠ lens.length →
        (¬ NotOversubscribed lens t.maxSize → build t lens = err) ∧
        (NotOversubscribed lens t.maxSize → ∃ t', build t lens = ok (some t') ∧ t'.For lens ∧ t'.maxSize = t.maxSize))) := by
  have hcl := countLoop_spec t.maxSize lens (List.replicate (t.maxSize + 1) 0) (by simp)
  unfold build
  rw [if_neg (by omega), if_neg (by omega)]
  refine ⟨fun h => by rw [hcl.2 h]; rfl, fun hs => ?_⟩
  obtain ⟨counts, e1, e2, e3⟩ := hcl.1 hs
  have hcnt : ∀ b, b ≤ t.maxSize → counts[b]? = some (lens.count b) := by
    intro b hb
    rw [e3 b hb, List.getElem?_replicate, if_pos (by omega)]; simp
  have hbl : ∀ b, 0 < b → b ≤ t.maxSize → counts[b]? = some (blCount lens b) := by
    intro b h0 hb
    rw [hcnt b hb]; simp [blCount]; omega
  simp only [e1, ok_bind, hcnt 0 (by omega), ofMem_some]
  refine ⟨fun h => by rw [if_pos h]; rfl, fun h => ?_⟩
  rw [if_neg h]
  have hleft := leftLoop_spec t.maxSize lens counts hbl t.maxSize 1 (Nat.le_refl _) (by simp [nextCode, blCount])
  constructor
  · intro hno
    have : ∃ b, t.maxSize - t.maxSize < b ∧ b ≤ t.maxSize ∧ 2 ^ b < nextCode lens b + blCount lens b := by
      unfold NotOversubscribed at hno
      simp only [Classical.not_forall] at hno
      obtain ⟨b, hb, hn⟩ := hno
      refine ⟨b, ?_, hb, by omega⟩
      cases b with
      | zero => simp [nextCode, blCount] at hn
      | succ b => omega
    rw [hleft.2 this]; rfl
  · intro hyes
    rw [hleft.1 (fun b _ hb => hyes b hb)]
    obtain ⟨offs, o1, o2, o3⟩ := offsetLoop_spec t.maxSize lens counts hbl (t.maxSize - 1) 1 (by omega) (by omega)
    have hf1 : firstIdx lens 1 = 0 := by simp [firstIdx, blCount]
    rw [hf1] at o1
    have ho : ∀ b, 0 < b → b ≤ t.maxSize → (0 :: 0 :: offs)[b]? = some (firstIdx lens b + (lens.take 0).count b) := by
      intro b h0 hb
      match b with
      | 1 => simp [hf1]
      | b + 2 =>
        simp only [List.getElem?_cons_succ, List.take_zero, List.count_nil, Nat.add_zero]
        rw [o3 b (by omega)]; congr 2; omega
    obtain ⟨symbols', s1, _, s3⟩ := symbolLoop_spec t.maxSize lens hs 0 (by omega) (0 :: 0 :: offs) t.symbols hsym ho
      (by intro i l hi; omega)
    rw [List.drop_zero] at s1
    refine ⟨{ t with symbols := symbols', counts := counts }, ?_, ⟨hs, hbl, hyes, s3⟩, rfl⟩
    simp only [ok_bind, o1, s1, pure_eq]

/-! ## decoding -/

theorem getSymLoop_code (t : HTree) (lens : List Nat) (ht : t.For lens) (i l : Nat) (hi : lens[i]? = some l) (hl : 0 < l)
    (rest : List Bool) (k b : Nat) (hb : 0 < b) (hbl : b ≤ l) (hkb : k + b = t.maxSize + 1) (s : BitStream) (hw : s.WF)
    (hbits : s.bits = msbBits (l - b + 1) (symCode lens i l) ++ rest) :
    ∃ s', getSymLoop t k b (symCode lens i l / 2 ^ (l - b + 1)) (nextCode lens b) (firstIdx lens b) s = ok (i, s') ∧
      s'.bits = rest ∧ s'.data = s.data ∧ s'.WF := by
  have hmem : l ∈ lens := List.mem_of_getElem? hi
  have hlm := ht.sizes l hmem
  induction k generalizing b s with
  | zero => omega
  | succ k ih =>
    rw [show l - b + 1 = (l - b) + 1 by omega, msbBits, List.cons_append] at hbits
    obtain ⟨s', e1, e2, e3, e4⟩ := s.getBit_cons hw _ _ hbits
    simp only [getSymLoop, e1, ok_bind, ht.counts b hb (by omega), ofMem_some, shiftl_or_bit]
    have hcode : 2 * (symCode lens i l / 2 ^ (l - b + 1)) + (symCode lens i l / 2 ^ (l - b) % 2 == 1).toNat
        = symCode lens i l / 2 ^ (l - b) := by
      have h2 : (symCode lens i l / 2 ^ (l - b) % 2 == 1).toNat = symCode lens i l / 2 ^ (l - b) % 2 := by
        rcases Nat.mod_two_eq_zero_or_one (symCode lens i l / 2 ^ (l - b)) with h | h <;> simp [h]
      rw [h2, Nat.pow_succ, ← Nat.div_div_eq_div_mul]
      omega
    rw [hcode]
    by_cases hlast : b = l
    · subst hlast
      simp only [Nat.sub_self, Nat.pow_zero, Nat.div_one]
      obtain ⟨hil, hil2⟩ := List.getElem?_eq_some_iff.1 hi
      have hr := rank_lt lens i hil
      rw [hil2] at hr
      have hblc : blCount lens b = lens.count b := by simp [blCount]; omega
      have hsc : symCode lens i b = nextCode lens b + (lens.take i).count b := rfl
      rw [if_pos (by omega), if_neg (by omega)]
      rw [show firstIdx lens b + (symCode lens i b - nextCode lens b) = firstIdx lens b + (lens.take i).count b by omega]
      rw [ht.symbols i b hi hl]
      refine ⟨s', rfl, ?_, e3, e4⟩
      rw [e2]; simp [msbBits]
    · have hge := nextCode_ge lens b (l - b - 1)
      rw [show l - b - 1 + 1 = l - b by omega, show b + (l - b - 1) + 1 = l by omega] at hge
      have hsc : symCode lens i l = nextCode lens l + (lens.take i).count l := rfl
      have hq : nextCode lens b + blCount lens b ≤ symCode lens i l / 2 ^ (l - b) := by
        rw [Nat.le_div_iff_mul_le (Nat.two_pow_pos _)]; omega
      rw [if_neg (by omega)]
      have hnc : (nextCode lens b + blCount lens b) <<< 1 = nextCode lens (b + 1) := by
        rw [Nat.shiftLeft_eq, nextCode]; omega
      have hfi : firstIdx lens b + blCount lens b = firstIdx lens (b + 1) := rfl
      rw [hnc, hfi]
      have hlb : l - (b + 1) + 1 = l - b := by omega
      have := ih (b + 1) (by omega) (by omega) (by omega) s' e4 (by rw [hlb]; exact e2)
      rw [hlb] at this
      obtain ⟨s'', f1, f2, f3, f4⟩ := this
      exact ⟨s'', f1, f2, by rw [f3, e3], f4⟩

theorem getSymLoop_sound (t : HTree) (lens : List Nat) (ht : t.For lens) (k b code : Nat) (hb : 0 < b)
    (hkb : k + b = t.maxSize + 1) (s : BitStream) (hw : s.WF)
    (hge : nextCode lens b ≤ 2 * code) (hlt : code < 2 ^ (b - 1)) :
    (∃ i l s', getSymLoop t k b code (nextCode lens b) (firstIdx lens b) s = ok (i, s') ∧ lens[i]? = some l ∧ b ≤ l ∧
        symCode lens i l / 2 ^ (l - b + 1) = code ∧
        s.bits = msbBits (l - b + 1) (symCode lens i l) ++ s'.bits ∧ s'.data = s.data ∧ s'.WF) ∨
    getSymLoop t k b code (nextCode lens b) (firstIdx lens b) s = err := by
  induction k generalizing b code s with
  | zero => right; rfl
  | succ k ih =>
    cases hbits : s.bits with
    | nil => right; simp [getSymLoop, s.getBit_nil hw hbits]
    | cons x r =>
      obtain ⟨s', e1, e2, e3, e4⟩ := s.getBit_cons hw _ _ hbits
      have hx : x.toNat ≤ 1 := by cases x <;> decide
      simp only [getSymLoop, e1, ok_bind, ht.counts b hb (by omega), ofMem_some, shiftl_or_bit]
      by_cases hm : 2 * code + x.toNat < nextCode lens b + blCount lens b
      · rw [if_pos (by omega), if_neg (by omega)]
        have hblc : blCount lens b = lens.count b := by simp [blCount]; omega
        obtain ⟨i, hi, h1, h2⟩ := exists_rank lens b (2 * code + x.toNat - nextCode lens b) (by omega)
        left
        have hi' : lens[i]? = some b := by rw [List.getElem?_eq_getElem hi, h1]
        have hsym := ht.symbols i b hi' hb
        rw [h2] at hsym
        have hsc : symCode lens i b = 2 * code + x.toNat := by unfold symCode; omega
        refine ⟨i, b, s', ?_, hi', Nat.le_refl _, ?_, ?_, e3, e4⟩
        · rw [hsym]; rfl
        · rw [hsc]; simp; omega
        · rw [hsc, e2, Nat.sub_self, Nat.zero_add, msbBits, msbBits]
          simp
          cases x <;> simp
      · rw [if_neg (by omega)]
        have hnc : (nextCode lens b + blCount lens b) <<< 1 = nextCode lens (b + 1) := by
          rw [Nat.shiftLeft_eq, nextCode]; omega
        have hnc2 : 2 * (nextCode lens b + blCount lens b) = nextCode lens (b + 1) := by rw [nextCode]
        have hfi : firstIdx lens b + blCount lens b = firstIdx lens (b + 1) := rfl
        rw [hnc, hfi]
        have hp : 2 * 2 ^ (b - 1) = 2 ^ (b + 1 - 1) := by
          rw [show b + 1 - 1 = (b - 1) + 1 by omega, Nat.pow_succ]; omega
        rcases ih (b + 1) (2 * code + x.toNat) (by omega) (by omega) s' e4 (by omega) (by omega) with h | h
        · left
          obtain ⟨i, l, s'', f1, f2, f3, f4, f5, f6, f7⟩ := h
          have hlb : l - (b + 1) + 1 = l - b := by omega
          rw [hlb] at f4 f5
          refine ⟨i, l, s'', f1, f2, by omega, ?_, ?_, by rw [f6, e3], f7⟩
          · rw [Nat.pow_succ, ← Nat.div_div_eq_div_mul, f4]; omega
          · rw [msbBits, f4, List.cons_append, ← f5, e2]
            congr 1
            cases x <;> simp <;> omega
        · right; exact h

/-- Decoding a code word returns its symbol and consumes exactly the code word. -/
theorem getSymbol_code (t : HTree) (lens : List Nat) (ht : t.For lens) (i : Nat) (w rest : List Bool)
    (hw : CodeWord lens i w) (s : BitStream) (hs : s.WF) (hbits : s.bits = w ++ rest) :
    ∃ s', getSymbol t s = ok (i, s') ∧ s'.bits = rest ∧ s'.data = s.data ∧ s'.WF := by
  obtain ⟨l, hi, hl, rfl⟩ := hw
  have hlm := ht.sizes l (List.mem_of_getElem? hi)
  have hk := ht.kraft l hlm
  obtain ⟨hil, hil2⟩ := List.getElem?_eq_some_iff.1 hi
  have hr := rank_lt lens i hil
  rw [hil2] at hr
  have hblc : blCount lens l = lens.count l := by simp [blCount]; omega
  have hlt : symCode lens i l < 2 ^ l := by unfold symCode; omega
  have := getSymLoop_code t lens ht i l hi hl rest t.maxSize 1 (by omega) (by omega) (by omega) s hs
    (by rw [show l - 1 + 1 = l by omega]; exact hbits)
  rw [show l - 1 + 1 = l by omega, Nat.div_eq_of_lt hlt] at this
  have h1 : nextCode lens 1 = 0 := by simp [nextCode, blCount]
  have h2 : firstIdx lens 1 = 0 := by simp [firstIdx, blCount]
  rwa [h1, h2] at this

/-- Every outcome of decoding is either a code word of the returned symbol, or an error. -/
theorem getSymbol_sound (t : HTree) (lens : List Nat) (ht : t.For lens) (s : BitStream) (hs : s.WF) :
    (∃ i w s', getSymbol t s = ok (i, s') ∧ CodeWord lens i w ∧ s.bits = w ++ s'.bits ∧ s'.data = s.data ∧ s'.WF)
    ∨ getSymbol t s = err := by
  have h1 : nextCode lens 1 = 0 := by simp [nextCode, blCount]
  have h2 : firstIdx lens 1 = 0 := by simp [firstIdx, blCount]
  have := getSymLoop_sound t lens ht t.maxSize 1 0 (by omega) (by omega) s hs (by omega) (by simp)
  rw [h1, h2] at this
  rcases this with ⟨i, l, s', f1, f2, f3, f4, f5, f6, f7⟩ | h
  · rw [show l - 1 + 1 = l by omega] at f5
    exact Or.inl ⟨i, _, s', f1, ⟨l, f2, by omega, rfl⟩, f5, f6, f7⟩
  · exact Or.inr h

theorem CodeWord.pos {lens : List Nat} {i : Nat} {w : List Bool} (h : CodeWord lens i w) : 0 < w.length := by
  obtain ⟨l, _, hl, rfl⟩ := h
  simpa using hl

end HTree
end Verif
