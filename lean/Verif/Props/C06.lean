import Verif.Lemmas.Huffman
/-!
# C06 – Huffman decoding inverts canonical Huffman coding
-/
namespace Verif.Props
open Verif Res Spec HTree

/-- Initialising a tree for `n` symbols with maximum size `m` and building it from `lens` -/
def mkTree (n m : Nat) (lens : List Nat) : Res (Option HTree) := do
  let t ← HTree.init n m
  t.build lens

theorem mkTree_eq (n m : Nat) (lens : List Nat) (hn : n ≤ 1024) (hm : m ≤ 32) :
    mkTree n m lens = build ⟨m, List.replicate n 0, List.replicate (m + 1) 0⟩ lens := by
  simp [mkTree, HTree.init, Nat.not_lt.2 hn, Nat.not_lt.2 hm]

/-- The decoder accepts a list of code sizes exactly if all sizes are in range, at least one symbol has a code, and the
code is not over-subscribed; the empty code is reported separately and everything else is refused. -/
theorem c06_accepts_iff (n m : Nat) (lens : List Nat) (hn : n ≤ 1024) (hm : 0 < m) (hm2 : m ≤ 32) (hl : lens.length ≤ n) :
    ((∃ t, mkTree n m lens = ok (some t)) ↔
      (∀ l ∈ lens, l ≤ m) ∧ (∃ l ∈ lens, l ≠ 0) ∧ NotOversubscribed lens m) ∧
    (mkTree n m lens = ok none ↔ ∀ l ∈ lens, l = 0) ∧
    Safe (mkTree n m lens) := by
  have hb := build_spec ⟨m, List.replicate n 0, List.replicate (m + 1) 0⟩ lens hm (by omega) (by simpa using hl)
  rw [mkTree_eq n m lens hn hm2]
  have hz : lens.count 0 = lens.length ↔ ∀ l ∈ lens, l = 0 := by
    rw [List.count_eq_length]; constructor <;> intro h l hl <;> exact (h l hl).symm
  by_cases hs : ∀ l ∈ lens, l ≤ m
  · have hb2 := hb.2 hs
    by_cases h0 : ∀ l ∈ lens, l = 0
    · have e := hb2.1 (hz.2 h0)
      rw [e]
      refine ⟨⟨(by rintro ⟨t, h⟩; cases h), ?_⟩, ⟨fun _ => h0, fun _ => rfl⟩, by simp⟩
      rintro ⟨_, ⟨l, h1, h2⟩, _⟩
      exact absurd (h0 l h1) h2
    · have hne : ∃ l ∈ lens, l ≠ 0 := by
        simpa only [Classical.not_forall, exists_prop] using h0
      have hb3 := hb2.2 (fun h => h0 (hz.1 h))
      by_cases hk : NotOversubscribed lens m
      · obtain ⟨t', e, _⟩ := hb3.2 hk
        rw [e]
        exact ⟨⟨fun _ => ⟨hs, hne, hk⟩, fun _ => ⟨t', rfl⟩⟩, ⟨(by intro h; cases h), fun h => absurd h h0⟩, by simp⟩
      · rw [hb3.1 hk]
        exact ⟨⟨(by rintro ⟨_, h⟩; cases h), fun h => absurd h.2.2 hk⟩, ⟨(by intro h; cases h), fun h => absurd h h0⟩, by simp⟩
  · have hex : ∃ l ∈ lens, m < l := by
      simpa only [Classical.not_forall, exists_prop, Nat.not_le] using hs
    rw [hb.1 hex]
    refine ⟨⟨(by rintro ⟨_, h⟩; cases h), fun h => absurd h.1 hs⟩, ⟨(by intro h; cases h), fun h => ?_⟩, by simp⟩
    obtain ⟨l, h1, h2⟩ := hex
    have := h l h1
    omega

example : mkTree 4 15 [2, 1, 3, 3] = ok (some ⟨15, [1, 0, 2, 3], [0, 1, 1, 2, 0, 0, 0, 0, 0, 0, 0, 0, 0, 0, 0, 0]⟩) ∧
    mkTree 4 15 [1, 1, 3, 3] = err ∧ mkTree 3 15 [0, 0, 0] = ok none := by decide +kernel

theorem mkTree_for (n m : Nat) (lens : List Nat) (hl : lens.length ≤ n) (t : HTree)
    (h : mkTree n m lens = ok (some t)) : t.For lens ∧ t.maxSize = m := by
  have hn : n ≤ 1024 := by
    refine Nat.le_of_not_lt fun hc => ?_
    simp [mkTree, HTree.init, hc] at h
  have hm2 : m ≤ 32 := by
    refine Nat.le_of_not_lt fun hc => ?_
    simp [mkTree, HTree.init, Nat.not_lt.2 hn, hc] at h
  have hm : 0 < m := by
    refine Nat.pos_of_ne_zero fun hc => ?_
    subst hc
    rw [mkTree_eq n 0 lens hn hm2] at h
    simp [build] at h
  have hacc := ((c06_accepts_iff n m lens hn hm hm2 hl).1).1 ⟨t, h⟩
  rw [mkTree_eq n m lens hn hm2] at h
  have hb := build_spec ⟨m, List.replicate n 0, List.replicate (m + 1) 0⟩ lens hm (by omega) (by simpa using hl)
  have hne : lens.count 0 ≠ lens.length := by
    intro hc
    obtain ⟨l, h1, h2⟩ := hacc.2.1
    exact h2 ((List.count_eq_length.1 hc l h1).symm)
  obtain ⟨t', e, h1, h2⟩ := ((hb.2 hacc.1).2 hne).2 hacc.2.2
  rw [e] at h
  cases h
  exact ⟨h1, h2⟩

/-- Whenever a tree was built, decoding at any position of any bit stream returns symbol `i` and leaves `rest` unread
if and only if the stream continues with the RFC 1951 code word of `i` followed by `rest`; in every other case it fails
with an error, and no table is indexed out of bounds. -/
theorem c06_decode_iff (n m : Nat) (lens : List Nat) (hl : lens.length ≤ n) (t : HTree)
    (h : mkTree n m lens = ok (some t)) (s : BitStream) (hs : s.WF) (i : Nat) (rest : List Bool) :
    ((∃ s', t.getSymbol s = ok (i, s') ∧ s'.bits = rest) ↔ ∃ w, CodeWord lens i w ∧ s.bits = w ++ rest) ∧
    Safe (t.getSymbol s) := by
  have ht := (mkTree_for n m lens hl t h).1
  refine ⟨⟨?_, ?_⟩, ?_⟩
  · rintro ⟨s', e, hr⟩
    rcases getSymbol_sound t lens ht s hs with ⟨i', w, s'', e', hw, hb, _⟩ | e'
    · rw [e] at e'; cases e'
      exact ⟨w, hw, by rw [hb, hr]⟩
    · rw [e] at e'; cases e'
  · rintro ⟨w, hw, hb⟩
    obtain ⟨s', e, hr, _⟩ := getSymbol_code t lens ht i w rest hw s hs hb
    exact ⟨s', e, hr⟩
  · rcases getSymbol_sound t lens ht s hs with ⟨_, _, _, e, _⟩ | e <;> simp [Safe, e]

/-- Consequence: the code words of an accepted code form a prefix-free code. -/
theorem c06_prefix_free (n m : Nat) (lens : List Nat) (hl : lens.length ≤ n) (t : HTree)
    (h : mkTree n m lens = ok (some t)) (i j : Nat) (w v r : List Bool)
    (hi : CodeWord lens i w) (hj : CodeWord lens j v) (hp : w ++ r = v) : i = j := by
  have ht := (mkTree_for n m lens hl t h).1
  -- a byte string whose bits start with `v`
  obtain ⟨d, pad, hd⟩ : ∃ (d : Bytes) (pad : List Bool), bytesBits d = v ++ pad := by
    clear hp hj hi
    suffices ∀ k (v : List Bool), v.length ≤ 8 * k → ∃ (d : Bytes) (pad : List Bool), bytesBits d = v ++ pad from
      this v.length v (by omega)
    intro k
    induction k with
    | zero => intro v hv; exact ⟨[], [], by simp [List.length_eq_zero_iff.1 (by omega : v.length = 0), bytesBits]⟩
    | succ k ih =>
      intro v hv
      by_cases hlen : v.length < 8
      · refine ⟨[UInt8.ofNat (bitsVal (v ++ List.replicate (8 - v.length) false))], List.replicate (8 - v.length) false, ?_⟩
        rw [bytesBits_cons]
        have hlt := bitsVal_lt (v ++ List.replicate (8 - v.length) false)
        have hl8 : (v ++ List.replicate (8 - v.length) false).length = 8 := by simp; omega
        rw [hl8] at hlt
        rw [UInt8.toNat_ofNat_of_lt' hlt]
        have := natBits_bitsVal (v ++ List.replicate (8 - v.length) false)
        rw [hl8] at this
        rw [this]; simp [bytesBits]
      · obtain ⟨d, pad, hd⟩ := ih (v.drop 8) (by simp; omega)
        refine ⟨UInt8.ofNat (bitsVal (v.take 8)) :: d, pad, ?_⟩
        rw [bytesBits_cons]
        have hlt := bitsVal_lt (v.take 8)
        have hl8 : (v.take 8).length = 8 := by simp; omega
        rw [hl8] at hlt
        rw [UInt8.toNat_ofNat_of_lt' hlt]
        have := natBits_bitsVal (v.take 8)
        rw [hl8] at this
        rw [this, hd, ← List.append_assoc, List.take_append_drop]
  have hb := BitStream.bits_init d 0
  simp only [List.drop_zero] at hb
  obtain ⟨s1, e1, _⟩ := getSymbol_code t lens ht j v pad hj (.init d 0) (BitStream.WF_init d 0 (by omega)) (by rw [hb, hd])
  obtain ⟨s2, e2, _⟩ := getSymbol_code t lens ht i w (r ++ pad) hi (.init d 0) (BitStream.WF_init d 0 (by omega))
    (by rw [hb, hd, ← hp, List.append_assoc])
  rw [e1] at e2
  cases e2
  rfl

/-- the code of RFC 1951 3.2.2's example: ABCDEFGH with sizes 3,3,3,3,3,2,4,4; the code word of H is 1111 -/
example : CodeWord [3, 3, 3, 3, 3, 2, 4, 4] 7 [true, true, true, true] ∧
    CodeWord [3, 3, 3, 3, 3, 2, 4, 4] 5 [false, false] :=
  ⟨⟨4, by decide, by decide, by decide⟩, ⟨2, by decide, by decide, by decide⟩⟩

example : (match mkTree 288 15 [3, 3, 3, 3, 3, 2, 4, 4] with
    | ok (some t) => (t.getSymbol (.init [0x0f] 0)).bind (fun p => ok p.1)
    | _ => err) = ok 7 := by decide +kernel

end Verif.Props
