import Verif.Model.Deflate
import Verif.Spec.Deflate
import Verif.Lemmas.Huffman
/-! Lemmas about the block header and code size decoding of the DEFLATE model -/
namespace Verif
open Res Spec

namespace BitStream

/-- `s'` is `s` after reading the bits `bs` -/
structure After (s s' : BitStream) (bs : List Bool) : Prop where
  bits : s.bits = bs ++ s'.bits
  data : s'.data = s.data
  wf : s'.WF

theorem After.trans {s s' s'' : BitStream} {a b : List Bool} (h1 : After s s' a) (h2 : After s' s'' b) : After s s'' (a ++ b) :=
  ⟨by rw [h1.bits, h2.bits, List.append_assoc], by rw [h2.data, h1.data], h2.wf⟩

theorem After.refl {s : BitStream} (h : s.WF) : After s s [] := ⟨rfl, rfl, h⟩

theorem After.rest {s s' : BitStream} {a b rest : List Bool} (h : After s s' a) (hb : s.bits = a ++ (b ++ rest)) : s'.bits = b ++ rest := by
  have := h.bits
  rw [hb] at this
  exact (List.append_cancel_left this).symm

theorem After.rest' {s s' : BitStream} {a rest : List Bool} (h : After s s' a) (hb : s.bits = a ++ rest) : s'.bits = rest := by
  have := h.bits
  rw [hb] at this
  exact (List.append_cancel_left this).symm

theorem After.length {s s' : BitStream} {a : List Bool} (h : After s s' a) : s.bits.length = a.length + s'.bits.length := by
  rw [h.bits]; simp

theorem size_eq {s : BitStream} (h : s.WF) : s.size = s.bits.length % 8 := by
  have := h.size_lt
  rw [length_bits]; omega

theorem getVal_c {s : BitStream} (hw : s.WF) {n v : Nat} {rest : List Bool} (hn : n ≤ 25 ∨ (n ≤ 32 ∧ s.size = 0))
    (hv : v < 2 ^ n) (hb : s.bits = natBits n v ++ rest) : ∃ s', s.getValue n = ok (v, s') ∧ After s s' (natBits n v) := by
  have := (getValue_spec s n hw (by omega) (by omega)).1 (by rw [hb]; simp)
  obtain ⟨s', h1, h2, h3, h4⟩ := this
  rw [hb, List.take_left' (by simp), bitsVal_natBits, Nat.mod_eq_of_lt hv] at h1
  rw [hb, List.drop_left' (by simp)] at h2
  exact ⟨s', h1, ⟨by rw [hb, h2], h3, h4⟩⟩

theorem getVal_s {s : BitStream} (hw : s.WF) {n : Nat} (hn : n ≤ 25 ∨ (n ≤ 32 ∧ s.size = 0)) :
    s.getValue n = err ∨ ∃ v s', s.getValue n = ok (v, s') ∧ v < 2 ^ n ∧ After s s' (natBits n v) := by
  have := getValue_spec s n hw (by omega) (by omega)
  by_cases h : n ≤ s.bits.length
  · right
    obtain ⟨s', h1, h2, h3, h4⟩ := this.1 h
    have hl : (s.bits.take n).length = n := by simp; omega
    refine ⟨_, s', h1, ?_, ?_, h3, h4⟩
    · have := bitsVal_lt (s.bits.take n); rwa [hl] at this
    · have := natBits_bitsVal (s.bits.take n); rw [hl] at this
      rw [this, h2, List.take_append_drop]
  · exact Or.inl (this.2 (by omega))

end BitStream

open BitStream

namespace HTree

theorem getSym_c {t : HTree} {lens : List Nat} (ht : t.For lens) {s : BitStream} (hw : s.WF) {i : Nat} {w rest : List Bool}
    (hi : CodeWord lens i w) (hb : s.bits = w ++ rest) : ∃ s', t.getSymbol s = ok (i, s') ∧ After s s' w := by
  obtain ⟨s', h1, h2, h3, h4⟩ := getSymbol_code t lens ht i w rest hi s hw hb
  exact ⟨s', h1, ⟨by rw [hb, h2], h3, h4⟩⟩

theorem getSym_s {t : HTree} {lens : List Nat} (ht : t.For lens) {s : BitStream} (hw : s.WF) :
    t.getSymbol s = err ∨ ∃ i w s', t.getSymbol s = ok (i, s') ∧ CodeWord lens i w ∧ After s s' w := by
  rcases getSymbol_sound t lens ht s hw with ⟨i, w, s', h1, h2, h3, h4, h5⟩ | h
  · exact Or.inr ⟨i, w, s', h1, h2, ⟨h3, h4, h5⟩⟩
  · exact Or.inl h

theorem _root_.Verif.Spec.CodeWord.lt {lens : List Nat} {i : Nat} {w : List Bool} (h : CodeWord lens i w) : i < lens.length := by
  obtain ⟨l, h1, _⟩ := h
  exact (List.getElem?_eq_some_iff.1 h1).1

/-- building a tree with `n` symbols -/
theorem build_c (n : Nat) (lens : List Nat) (hn : n ≤ 1024) (hl : lens.length ≤ n) (hs : ∀ l ∈ lens, l ≤ 15) (hg : GoodCode lens) :
    ∃ t t', HTree.init n 15 = ok t ∧ t.build lens = ok (some t') ∧ t'.For lens := by
  have hb := build_spec ⟨15, List.replicate n 0, List.replicate 16 0⟩ lens (by simp) (by omega) (by simpa using hl)
  have hne : lens.count 0 ≠ lens.length := by
    intro hc
    obtain ⟨l, h1, h2⟩ := hg.2
    exact h2 ((List.count_eq_length.1 hc l h1).symm)
  obtain ⟨t', h1, h2, _⟩ := ((hb.2 hs).2 hne).2 hg.1
  exact ⟨_, t', by simp [HTree.init, Nat.not_lt.2 hn], h1, h2⟩

theorem build_s (n : Nat) (lens : List Nat) (hn : n ≤ 1024) (hl : lens.length ≤ n) :
    ∃ t, HTree.init n 15 = ok t ∧ (t.build lens = err ∨ t.build lens = ok none ∨
      ∃ t', t.build lens = ok (some t') ∧ t'.For lens ∧ (∀ l ∈ lens, l ≤ 15) ∧ GoodCode lens) := by
  refine ⟨⟨15, List.replicate n 0, List.replicate 16 0⟩, by simp [HTree.init, Nat.not_lt.2 hn], ?_⟩
  have hb := build_spec ⟨15, List.replicate n 0, List.replicate 16 0⟩ lens (by simp) (by omega) (by simpa using hl)
  by_cases hs : ∀ l ∈ lens, l ≤ 15
  · by_cases h0 : lens.count 0 = lens.length
    · exact Or.inr (Or.inl ((hb.2 hs).1 h0))
    · have hne : ∃ l ∈ lens, l ≠ 0 := by
        refine Classical.byContradiction fun hc => h0 ?_
        rw [List.count_eq_length]
        intro b hb
        refine Classical.byContradiction fun hc2 => hc ⟨b, hb, fun h => hc2 h.symm⟩
      by_cases hk : NotOversubscribed lens 15
      · obtain ⟨t', h1, h2, _⟩ := ((hb.2 hs).2 h0).2 hk
        exact Or.inr (Or.inr ⟨t', h1, h2, hs, hk, hne⟩)
      · exact Or.inl (((hb.2 hs).2 h0).1 hk)
  · refine Or.inl (hb.1 ?_)
    simpa only [Classical.not_forall, exists_prop, Nat.not_le] using hs

end HTree

namespace Deflate

/-! ## code length code sizes -/

/-- storing `vals` in sequence order starting at `i` -/
def setAll : Nat → List Nat → List (Option Nat) → List (Option Nat)
  | _, [], arr => arr
  | i, v :: vs, arr => setAll (i + 1) vs (arr.set (codeSizesSequence.getD i 0) (some v))

theorem setAll_append (a b : List Nat) (i : Nat) (arr : List (Option Nat)) :
    setAll i (a ++ b) arr = setAll (i + a.length) b (setAll i a arr) := by
  induction a generalizing i arr with
  | nil => rfl
  | cons x a ih => simp only [List.cons_append, setAll, ih, List.length_cons]; congr 1; omega

theorem length_setAll (a : List Nat) (i : Nat) (arr : List (Option Nat)) : (setAll i a arr).length = arr.length := by
  induction a generalizing i arr with
  | nil => rfl
  | cons x a ih => simp [setAll, ih]

theorem seq_lt (i : Nat) (h : i < 19) : ∃ q, codeSizesSequence[i]? = some q ∧ codeSizesSequence.getD i 0 = q ∧ q < 19 := by
  have : ∀ i, i < 19 → codeSizesSequence[i]? = some (codeSizesSequence.getD i 0) ∧ codeSizesSequence.getD i 0 < 19 := by decide
  exact ⟨_, (this i h).1, rfl, (this i h).2⟩

theorem readCodeSizes_c (vals : List Nat) (hv : ∀ v ∈ vals, v < 8) (i : Nat) (arr : List (Option Nat)) (s : BitStream) (rest : List Bool)
    (hw : s.WF) (hi : i + vals.length ≤ 19) (ha : 19 ≤ arr.length) (hb : s.bits = vals.flatMap (natBits 3) ++ rest) :
    ∃ s', readCodeSizes vals.length i arr s = ok (i + vals.length, setAll i vals arr, s') ∧ After s s' (vals.flatMap (natBits 3)) := by
  induction vals generalizing i arr s with
  | nil => exact ⟨s, rfl, After.refl hw⟩
  | cons v vs ih =>
    simp only [List.length_cons] at hi
    rw [List.flatMap_cons, List.append_assoc] at hb
    obtain ⟨s1, e1, a1⟩ := getVal_c hw (by omega) (by have := hv v (by simp); omega) hb
    obtain ⟨q, q1, q2, q3⟩ := seq_lt i (by omega)
    simp only [List.length_cons, readCodeSizes, e1, ok_bind, q1, ofMem_some, if_pos (show q < arr.length by omega), setAll, q2]
    obtain ⟨s2, e2, a2⟩ := ih (fun v h => hv v (by simp [h])) (i + 1) (arr.set q (some v)) s1 a1.wf (by omega) (by simpa using ha) (a1.rest hb)
    refine ⟨s2, ?_, a1.trans a2⟩
    rw [e2]; congr 2; omega

theorem readCodeSizes_s (k : Nat) (i : Nat) (arr : List (Option Nat)) (s : BitStream)
    (hw : s.WF) (hi : i + k ≤ 19) (ha : 19 ≤ arr.length) :
    readCodeSizes k i arr s = err ∨ ∃ vals s', vals.length = k ∧ (∀ v ∈ vals, v < 8) ∧
      readCodeSizes k i arr s = ok (i + k, setAll i vals arr, s') ∧ After s s' (vals.flatMap (natBits 3)) := by
  induction k generalizing i arr s with
  | zero => exact Or.inr ⟨[], s, rfl, by simp, rfl, After.refl hw⟩
  | succ k ih =>
    obtain ⟨q, q1, q2, q3⟩ := seq_lt i (by omega)
    rcases getVal_s hw (n := 3) (by omega) with e1 | ⟨v, s1, e1, hv, a1⟩
    · left; simp [readCodeSizes, e1]
    · simp only [readCodeSizes, e1, ok_bind, q1, ofMem_some, if_pos (show q < arr.length by omega)]
      rcases ih (i + 1) (arr.set q (some v)) s1 a1.wf (by omega) (by simpa using ha) with e2 | ⟨vals, s2, h1, h2, e2, a2⟩
      · exact Or.inl e2
      · refine Or.inr ⟨v :: vals, s2, by simp [h1], ?_, ?_, ?_⟩
        · intro x hx
          rcases List.mem_cons.1 hx with rfl | hx
          · exact hv
          · exact h2 x hx
        · rw [e2, setAll, q2]; congr 2; omega
        · rw [List.flatMap_cons]; exact a1.trans a2

theorem clearCodeSizes_eq (k i : Nat) (arr : List (Option Nat)) (hk : i + k = 19) (ha : 19 ≤ arr.length) :
    clearCodeSizes i arr = ok (setAll i (List.replicate k 0) arr) := by
  induction k generalizing i arr with
  | zero => rw [clearCodeSizes, if_neg (by omega)]; rfl
  | succ k ih =>
    obtain ⟨q, q1, q2, q3⟩ := seq_lt i (by omega)
    rw [clearCodeSizes, if_pos (by omega)]
    simp only [q1, ofMem_some, ok_bind, if_pos (show q < arr.length by omega)]
    rw [ih (i + 1) _ (by omega) (by simpa using ha), List.replicate_succ, setAll, q2]

theorem initialised_eq (vals : List Nat) (h : vals.length ≤ 19) :
    initialised ((setAll vals.length (List.replicate (19 - vals.length) 0) (setAll 0 vals (List.replicate 316 none))).take 19)
      = ok (clSizes vals) := by
  have hz := setAll_append vals (List.replicate (19 - vals.length) 0) 0 (List.replicate 316 none)
  rw [Nat.zero_add] at hz
  rw [← hz]
  have hcl : clSizes vals = clSizes (vals ++ List.replicate (19 - vals.length) 0) := by
    unfold clSizes
    apply List.map_congr_left
    intro s _
    simp only [List.getD_eq_getElem?_getD, List.getElem?_append]
    split
    · rfl
    · rename_i hge
      rw [List.getElem?_eq_none (by omega), List.getElem?_replicate]
      split <;> rfl
  rw [hcl]
  have hl : (vals ++ List.replicate (19 - vals.length) 0).length = 19 := by simp; omega
  generalize vals ++ List.replicate (19 - vals.length) 0 = l at hl ⊢
  rw [show (316 : Nat) = 19 + 297 from rfl, ← List.replicate_append_replicate]
  generalize List.replicate 297 (none : Option Nat) = T
  match l, hl with
  | [a0, a1, a2, a3, a4, a5, a6, a7, a8, a9, a10, a11, a12, a13, a14, a15, a16, a17, a18], _ =>
    have e1 : setAll 0 [a0, a1, a2, a3, a4, a5, a6, a7, a8, a9, a10, a11, a12, a13, a14, a15, a16, a17, a18]
        (List.replicate 19 none ++ T) = [some a3, some a17, some a15, some a13, some a11, some a9, some a7, some a5, some a4,
          some a6, some a8, some a10, some a12, some a14, some a16, some a18, some a0, some a1, some a2] ++ T := by
      simp only [setAll, codeSizesSequence, List.getD_cons_zero, List.getD_cons_succ, List.replicate, List.cons_append,
        List.set_cons_zero, List.set_cons_succ, List.nil_append]
    have e2 : clSizes [a0, a1, a2, a3, a4, a5, a6, a7, a8, a9, a10, a11, a12, a13, a14, a15, a16, a17, a18] =
        [a3, a17, a15, a13, a11, a9, a7, a5, a4, a6, a8, a10, a12, a14, a16, a18, a0, a1, a2] := rfl
    rw [e1, e2]
    simp only [List.cons_append, List.nil_append, List.take_succ_cons, List.take_zero]
    simp only [initialised, ofMem_some, ok_bind, pure_eq]

/-! ## code sizes -/

theorem decodeSizes_c (t : HTree) (cl : List Nat) (ht : t.For cl) (total : Nat) (acc : List Nat) (bits : List Bool) (acc' : List Nat)
    (h : Sizes cl total acc bits acc') : ∀ (s : BitStream) (rest : List Bool), s.WF → s.bits = bits ++ rest →
    ∃ s', decodeSizes t total acc s = ok (acc', s') ∧ After s s' bits := by
  induction h with
  | done h =>
    intro s rest hw hb
    exact ⟨s, by rw [decodeSizes, if_neg (by omega)], After.refl hw⟩
  | size l h1 h2 h3 _ ih =>
    intro s rest hw hb
    rw [List.append_assoc] at hb
    obtain ⟨s1, e1, a1⟩ := HTree.getSym_c ht hw h3 hb
    obtain ⟨s2, e2, a2⟩ := ih s1 rest a1.wf (a1.rest hb)
    refine ⟨s2, ?_, a1.trans a2⟩
    rw [decodeSizes, if_pos h1]
    simp only [e1, if_pos h2, e2]
  | @rep acc w bits acc' p x h1 h2 h3 h4 _ ih =>
    intro s rest hw hb
    rw [List.append_assoc, List.append_assoc] at hb
    obtain ⟨s1, e1, a1⟩ := HTree.getSym_c ht hw h4 hb
    have hb1 := a1.rest hb
    obtain ⟨s2, e2, a2⟩ := getVal_c a1.wf (n := 2) (by omega) (by omega) hb1
    obtain ⟨s3, e3, a3⟩ := ih s2 rest a2.wf (a2.rest hb1)
    refine ⟨s3, ?_, a1.trans (a2.trans a3)⟩
    rw [decodeSizes, if_pos (by omega)]
    have hne : acc ≠ [] := by rintro rfl; simp at h1
    have hlen : acc.length ≠ 0 := by simpa using hne
    rw [List.getLast?_eq_getElem?] at h1
    rw [Nat.add_comm 3 x] at e3 h3
    simp only [e1, show ¬ (16 < 16) by omega, if_false, if_true, hlen, h1, ofMem_some, ok_bind, e2, pure_eq,
      show ¬ (acc.length + (x + 3) > total) by omega, show ¬ (x + 3 = 0) by omega, e3]
  | @zeros acc w bits acc' x h1 h2 h3 _ ih =>
    intro s rest hw hb
    rw [List.append_assoc, List.append_assoc] at hb
    obtain ⟨s1, e1, a1⟩ := HTree.getSym_c ht hw h3 hb
    have hb1 := a1.rest hb
    obtain ⟨s2, e2, a2⟩ := getVal_c a1.wf (n := 3) (by omega) (by omega) hb1
    obtain ⟨s3, e3, a3⟩ := ih s2 rest a2.wf (a2.rest hb1)
    refine ⟨s3, ?_, a1.trans (a2.trans a3)⟩
    rw [decodeSizes, if_pos (by omega)]
    rw [Nat.add_comm 3 x] at e3 h2
    simp only [e1, show ¬ (17 < 16) by omega, if_false, if_true, show ¬ (17 = 16) by omega, ok_bind, e2, pure_eq,
      show ¬ (acc.length + (x + 3) > total) by omega, show ¬ (x + 3 = 0) by omega, e3]
  | @manyZeros acc w bits acc' x h1 h2 h3 _ ih =>
    intro s rest hw hb
    rw [List.append_assoc, List.append_assoc] at hb
    obtain ⟨s1, e1, a1⟩ := HTree.getSym_c ht hw h3 hb
    have hb1 := a1.rest hb
    obtain ⟨s2, e2, a2⟩ := getVal_c a1.wf (n := 7) (by omega) (by omega) hb1
    obtain ⟨s3, e3, a3⟩ := ih s2 rest a2.wf (a2.rest hb1)
    refine ⟨s3, ?_, a1.trans (a2.trans a3)⟩
    rw [decodeSizes, if_pos (by omega)]
    rw [Nat.add_comm 11 x] at e3 h2
    simp only [e1, show ¬ (18 < 16) by omega, if_false, if_true, show ¬ (18 = 16) by omega, show ¬ (18 = 17) by omega, ok_bind, e2, pure_eq,
      show ¬ (acc.length + (x + 11) > total) by omega, show ¬ (x + 11 = 0) by omega, e3]

theorem decodeSizes_s (t : HTree) (cl : List Nat) (ht : t.For cl) (hcl : cl.length ≤ 19) (total : Nat) (acc : List Nat)
    (s : BitStream) (hw : s.WF) (hacc : acc.length ≤ total) :
    decodeSizes t total acc s = err ∨ ∃ acc' s' bits, decodeSizes t total acc s = ok (acc', s') ∧ Sizes cl total acc bits acc' ∧
      After s s' bits := by
  induction hk : total - acc.length using Nat.strongRecOn generalizing acc s with
  | ind k ih =>
    rw [decodeSizes]
    by_cases hlt : acc.length < total
    · rw [if_pos hlt]
      rcases HTree.getSym_s ht hw with e1 | ⟨i, w, s1, e1, hc, a1⟩
      · simp [e1]
      have hi := hc.lt
      simp only [e1]
      by_cases h16 : i < 16
      · rw [if_pos h16]
        rcases ih (total - (acc ++ [i]).length) (by simp; omega) (acc ++ [i]) s1 a1.wf (by simp; omega) rfl with e2 | ⟨acc', s2, bits, e2, h2, a2⟩
        · exact Or.inl e2
        · exact Or.inr ⟨acc', s2, w ++ bits, e2, .size i hlt h16 hc h2, a1.trans a2⟩
      · rw [if_neg h16]
        -- the three repeat codes
        have step : ∀ (times p n x : Nat) (s2 : BitStream), 0 < times → After s1 s2 (natBits n x) →
            (∀ bits acc', Sizes cl total (acc ++ List.replicate times p) bits acc' → acc.length + times ≤ total →
              Sizes cl total acc (w ++ (natBits n x ++ bits)) acc') →
            ((if acc.length + times > total then err else if times = 0 then ub
              else decodeSizes t total (acc ++ List.replicate times p) s2) = err ∨
             ∃ acc' s' bits, (if acc.length + times > total then err else if times = 0 then ub
              else decodeSizes t total (acc ++ List.replicate times p) s2) = ok (acc', s') ∧ Sizes cl total acc bits acc' ∧ After s s' bits) := by
          intro times p n x s2 hpos a2 hS
          by_cases hgt : acc.length + times > total
          · rw [if_pos hgt]; exact Or.inl rfl
          · rw [if_neg hgt, if_neg (by omega)]
            rcases ih (total - (acc ++ List.replicate times p).length) (by simp; omega) (acc ++ List.replicate times p) s2 a2.wf
              (by simp; omega) rfl with e3 | ⟨acc', s3, bits, e3, h3, a3⟩
            · exact Or.inl e3
            · exact Or.inr ⟨acc', s3, _, e3, hS _ _ h3 (by omega), a1.trans (a2.trans a3)⟩
        by_cases h1 : i = 16
        · subst h1
          simp only [if_true]
          by_cases h0 : acc.length = 0
          · simp [h0]
          · simp only [h0, if_false]
            have hget : acc[acc.length - 1]? = some acc[acc.length - 1] := List.getElem?_eq_getElem (by omega)
            simp only [hget, ofMem_some, ok_bind]
            rcases getVal_s a1.wf (n := 2) (by omega) with e2 | ⟨x, s2, e2, hx, a2⟩
            · simp [e2]
            · simp only [e2, ok_bind, pure_eq]
              refine step (x + 3) _ 2 x s2 (by omega) a2 ?_
              intro bits acc' hS hle
              rw [Nat.add_comm x 3] at hS hle
              exact .rep _ x (by rw [List.getLast?_eq_getElem?]; exact hget) hx hle hc hS
        · by_cases h2 : i = 17
          · subst h2
            simp only [show ¬ (17 = 16) by omega, if_false, if_true]
            rcases getVal_s a1.wf (n := 3) (by omega) with e2 | ⟨x, s2, e2, hx, a2⟩
            · simp [e2]
            · simp only [e2, ok_bind, pure_eq]
              refine step (x + 3) _ 3 x s2 (by omega) a2 ?_
              intro bits acc' hS hle
              rw [Nat.add_comm x 3] at hS hle
              exact .zeros x hx hle hc hS
          · have h3 : i = 18 := by omega
            subst h3
            simp only [show ¬ (18 = 16) by omega, show ¬ (18 = 17) by omega, if_false, if_true]
            rcases getVal_s a1.wf (n := 7) (by omega) with e2 | ⟨x, s2, e2, hx, a2⟩
            · simp [e2]
            · simp only [e2, ok_bind, pure_eq]
              refine step (x + 11) _ 7 x s2 (by omega) a2 ?_
              intro bits acc' hS hle
              rw [Nat.add_comm x 11] at hS hle
              exact .manyZeros x hx hle hc hS
    · rw [if_neg hlt]
      exact Or.inr ⟨acc, s, [], rfl, .done (by omega), After.refl hw⟩

theorem Sizes.length {cl : List Nat} {total : Nat} {acc bits acc'} (h : Sizes cl total acc bits acc') : acc'.length = total := by
  induction h <;> assumption

theorem Sizes.le15 {cl : List Nat} {total : Nat} {acc bits acc'} (h : Sizes cl total acc bits acc') :
    (∀ l ∈ acc, l ≤ 15) → ∀ l ∈ acc', l ≤ 15 := by
  induction h with
  | done _ => exact id
  | size l _ h2 _ _ ih =>
    intro ha; apply ih; intro x hx
    rcases List.mem_append.1 hx with hx | hx
    · exact ha x hx
    · simp at hx; omega
  | @rep acc w bits acc' p x h1 _ _ _ _ ih =>
    intro ha; apply ih; intro y hy
    rcases List.mem_append.1 hy with hy | hy
    · exact ha y hy
    · rw [List.eq_of_mem_replicate hy]
      exact ha p (List.mem_of_getLast? h1)
  | zeros x _ _ _ _ ih =>
    intro ha; apply ih; intro y hy
    rcases List.mem_append.1 hy with hy | hy
    · exact ha y hy
    · rw [List.eq_of_mem_replicate hy]; omega
  | manyZeros x _ _ _ _ ih =>
    intro ha; apply ih; intro y hy
    rcases List.mem_append.1 hy with hy | hy
    · exact ha y hy
    · rw [List.eq_of_mem_replicate hy]; omega

end Deflate
end Verif
