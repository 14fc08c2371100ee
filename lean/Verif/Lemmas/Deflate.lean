import Verif.Lemmas.DeflateHeader
/-! Lemmas about the DEFLATE model: trees, Huffman blocks, stored blocks, block sequences -/
namespace Verif
open Res Spec BitStream
namespace Deflate

/-! ## dynamic trees -/

theorem len316 : 19 ≤ (List.replicate 316 (none : Option Nat)).length := by rw [List.length_replicate]; omega
theorem len316' (i : Nat) (vals : List Nat) : 19 ≤ (setAll i vals (List.replicate 316 (none : Option Nat))).length := by
  rw [length_setAll]; exact len316

theorem header14 (a b c : Nat) (ha : a < 32) (hb : b < 32) :
    natBits 14 (a + 32 * (b + 32 * c)) = natBits 5 a ++ (natBits 5 b ++ natBits 4 c) := by
  have h1 : natBits 9 (b + 32 * c) = _ := natBits_append 5 4 b c hb
  have h2 : natBits 14 (a + 32 * (b + 32 * c)) = _ := natBits_append 5 9 a (b + 32 * c) ha
  rw [h2, h1]

theorem and31 (v : Nat) : v &&& 0x1f = v % 32 := Nat.and_two_pow_sub_one_eq_mod v 5
theorem shr5 (v : Nat) : v >>> 5 = v / 32 := Nat.shiftRight_eq_div_pow v 5

theorem clSizes_le (vals : List Nat) (h : ∀ v ∈ vals, v < 8) : ∀ l ∈ clSizes vals, l ≤ 15 := by
  intro l hl
  simp only [clSizes, List.mem_map, List.getD_eq_getElem?_getD] at hl
  obtain ⟨s, _, rfl⟩ := hl
  cases hx : vals[clOrder.idxOf s]? with
  | none => simp
  | some v => have := h v (List.mem_of_getElem? hx); simp; omega

theorem length_clSizes (vals : List Nat) : (clSizes vals).length = 19 := by simp [clSizes]

theorem buildDynamic_c {h : List Bool} {ll dl : List Nat} (hd : DynHeader UsedDist h ll dl) (heob : ∃ w, CodeWord ll 256 w)
    {s : BitStream} (hw : s.WF) {rest : List Bool} (hb : s.bits = h ++ rest) :
    ∃ lt dt s', buildDynamic s = ok (lt, dt, s') ∧ lt.For ll ∧ dt.For dl ∧ After s s' h := by
  obtain ⟨vals, rle, l1, l2, ⟨d1, d2, hdl⟩, v1, v2, hv, hcl, hll, hS, rfl⟩ := hd
  have hlen := Sizes.length hS
  have hle := Sizes.le15 hS (by simp)
  obtain ⟨lt0, lt, i1, b1, f1⟩ := HTree.build_c 288 ll (by omega) (by omega) (fun l hl => hle l (by simp [hl])) hll
  obtain ⟨dt0, dt, i2, b2, f2⟩ := HTree.build_c 30 dl (by omega) (by omega) (fun l hl => hle l (by simp [hl])) hdl
  obtain ⟨ct0, ct, i3, b3, f3⟩ := HTree.build_c 19 (clSizes vals) (by omega) (by simp [length_clSizes]) (clSizes_le vals hv) hcl
  have hb14 : s.bits = natBits 14 ((ll.length - 257) + 32 * ((dl.length - 1) + 32 * (vals.length - 4))) ++
      (vals.flatMap (natBits 3) ++ (rle ++ rest)) := by
    rw [hb, header14 _ _ _ (by omega) (by omega)]; simp only [List.append_assoc]
  obtain ⟨s1, e1, a1⟩ := getVal_c hw (n := 14) (by omega) (by omega) hb14
  have hb1 := a1.rest hb14
  obtain ⟨s2, e2, a2⟩ := readCodeSizes_c vals hv 0 (List.replicate 316 none) s1 (rle ++ rest) a1.wf (by omega) len316 hb1
  have hb2 := a2.rest hb1
  obtain ⟨s3, e3, a3⟩ := decodeSizes_c ct _ f3 _ [] rle _ hS s2 rest a2.wf hb2
  have n1 : (ll.length - 257 + 32 * (dl.length - 1 + 32 * (vals.length - 4))) % 32 + 257 = ll.length := by omega
  have n2 : (ll.length - 257 + 32 * (dl.length - 1 + 32 * (vals.length - 4))) / 32 % 32 + 1 = dl.length := by omega
  have n3 : (ll.length - 257 + 32 * (dl.length - 1 + 32 * (vals.length - 4))) / 32 / 32 + 4 = vals.length := by omega
  refine ⟨lt, dt, s3, ?_, f1, f2, ?_⟩
  · obtain ⟨w, l, g1, g2, _⟩ := heob
    have hget : (ll ++ dl)[256]? = some l := by
      rw [List.getElem?_append_left (by omega)]; exact g1
    unfold buildDynamic
    simp only [i1, i2, i3, e1, ok_bind, and31, shr5, n1, n2, n3, require_true l2, require_true d2, e2, Nat.zero_add,
      clearCodeSizes_eq (19 - vals.length) vals.length (setAll 0 vals (List.replicate 316 none)) (by omega) (len316' _ _),
      initialised_eq vals v2, b3, built, e3, hlen]
    rw [if_neg (by omega)]
    simp only [hget, ofMem_some, ok_bind, require_true (show l ≠ 0 by omega), List.take_left' (rfl : ll.length = ll.length),
      List.drop_left' (rfl : ll.length = ll.length), List.take_length, b1, b2, pure_eq]
  · have := a1.trans (a2.trans a3)
    rw [header14 _ _ _ (by omega) (by omega)] at this
    simpa only [List.append_assoc] using this

theorem init_eq (n : Nat) (h : n ≤ 1024) : HTree.init n 15 = ok ⟨15, List.replicate n 0, List.replicate 16 0⟩ := by
  unfold HTree.init; rw [if_neg (by omega), if_neg (by omega)]

theorem buildDynamic_s {s : BitStream} (hw : s.WF) :
    buildDynamic s = err ∨ ∃ lt dt s' h ll dl, buildDynamic s = ok (lt, dt, s') ∧ DynHeader UsedDist h ll dl ∧ lt.For ll ∧ dt.For dl ∧
      After s s' h := by
  unfold buildDynamic
  obtain ⟨lt0, il⟩ : ∃ t, HTree.init 288 15 = ok t := ⟨_, init_eq _ (by omega)⟩
  obtain ⟨dt0, idt⟩ : ∃ t, HTree.init 30 15 = ok t := ⟨_, init_eq _ (by omega)⟩
  obtain ⟨ct0, ic⟩ : ∃ t, HTree.init 19 15 = ok t := ⟨_, init_eq _ (by omega)⟩
  obtain ⟨R, hR⟩ : ∃ R, R = List.replicate 316 (none : Option Nat) := ⟨_, rfl⟩
  have hR1 : 19 ≤ R.length := by rw [hR]; exact len316
  have hR2 : ∀ vals, vals.length ≤ 19 → clearCodeSizes vals.length (setAll 0 vals R) =
      ok (setAll vals.length (List.replicate (19 - vals.length) 0) (setAll 0 vals R)) := fun vals hl =>
    clearCodeSizes_eq (19 - vals.length) vals.length _ (by omega) (by rw [length_setAll]; exact hR1)
  have hR3 : ∀ vals, vals.length ≤ 19 → initialised ((setAll vals.length (List.replicate (19 - vals.length) 0) (setAll 0 vals R)).take 19)
      = ok (clSizes vals) := by rw [hR]; exact initialised_eq
  rw [il, idt, ← hR]
  simp only [ok_bind, and31, shr5]
  rcases getVal_s hw (n := 14) (by omega) with e1 | ⟨v, s1, e1, hv14, a1⟩
  · simp [e1]
  simp only [e1, ok_bind]
  by_cases hl : v % 32 + 257 ≤ 286
  case neg => simp only [require_false hl, err_bind, true_or]
  by_cases hdd : v / 32 % 32 + 1 ≤ 30
  case neg => simp only [require_true hl, require_false hdd, ok_bind, err_bind, true_or]
  simp only [require_true hl, require_true hdd, ok_bind]
  rcases readCodeSizes_s (v / 32 / 32 + 4) 0 R s1 a1.wf (by omega) hR1 with e2 | ⟨vals, s2, hvl, hv8, e2, a2⟩
  · simp [e2]
  rw [← hvl] at e2
  simp only [← hvl, e2, ok_bind, Nat.zero_add,
    hR2 vals (by omega), hR3 vals (by omega), ic]
  obtain ⟨_, ic', hct⟩ := HTree.build_s 19 (clSizes vals) (by omega) (by simp [length_clSizes])
  rw [ic] at ic'; cases ic'
  rcases hct with e3 | e3 | ⟨ct, e3, f3, _, g3⟩
  · simp [e3]
  · simp [e3, built]
  simp only [e3, built, ok_bind]
  rcases decodeSizes_s ct _ f3 (by simp [length_clSizes]) (v % 32 + 257 + (v / 32 % 32 + 1)) [] s2 a2.wf (by simp) with
    e4 | ⟨sizes, s3, rle, e4, hS, a3⟩
  · simp [e4]
  have hlen := Sizes.length hS
  simp only [e4, ok_bind]
  rw [if_neg (by omega)]
  have hget : sizes[256]? = some sizes[256] := List.getElem?_eq_getElem (by omega)
  simp only [hget, ofMem_some, ok_bind]
  by_cases h0 : sizes[256] ≠ 0
  case neg => simp only [require_false h0, err_bind, true_or]
  simp only [require_true h0, ok_bind]
  obtain ⟨_, il', hlt⟩ := HTree.build_s 288 (sizes.take (v % 32 + 257)) (by omega) (by simp; omega)
  rw [il] at il'; cases il'
  rcases hlt with e5 | e5 | ⟨lt, e5, f5, _, g5⟩
  · simp [e5]
  · simp [e5]
  obtain ⟨_, id', hdt⟩ := HTree.build_s 30 ((sizes.drop (v % 32 + 257)).take (v / 32 % 32 + 1)) (by omega) (by simp; omega)
  rw [idt] at id'; cases id'
  rcases hdt with e6 | e6 | ⟨dt, e6, f6, _, g6⟩
  · simp [e5, e6]
  · simp [e5, e6]
  right
  have htl : (sizes.take (v % 32 + 257)).length = v % 32 + 257 := by simp; omega
  have htd : ((sizes.drop (v % 32 + 257)).take (v / 32 % 32 + 1)).length = v / 32 % 32 + 1 := by simp; omega
  have happ : sizes.take (v % 32 + 257) ++ (sizes.drop (v % 32 + 257)).take (v / 32 % 32 + 1) = sizes := by
    rw [List.take_of_length_le (l := sizes.drop _) (by simp; omega), List.take_append_drop]
  refine ⟨lt, dt, s3, _, _, _, by simp [e5, e6], ⟨vals, rle, ?_, ?_, ⟨?_, ?_, g6⟩, ?_, ?_, hv8, g3, g5, ?_, rfl⟩, f5, f6, ?_⟩
  · omega
  · omega
  · omega
  · omega
  · omega
  · omega
  · rw [htl, htd, happ]; exact hS
  · have := a1.trans (a2.trans a3)
    rw [htl, htd]
    have hh := header14 (v % 32) (v / 32 % 32) (v / 32 / 32) (by omega) (by omega)
    rw [show v % 32 + 32 * (v / 32 % 32 + 32 * (v / 32 / 32)) = v by omega] at hh
    rw [show v % 32 + 257 - 257 = v % 32 by omega, show v / 32 % 32 + 1 - 1 = v / 32 % 32 by omega,
      show vals.length - 4 = v / 32 / 32 by omega]
    rw [hh] at this
    simpa only [List.append_assoc] using this

/-! ## fixed trees -/

theorem fixedSizes_ll : fixedSizes.take 288 = fixedLL := by decide +kernel
theorem fixedSizes_dl : (fixedSizes.drop 288).take 30 = List.replicate 30 5 := by decide +kernel

theorem good_fixedLL : GoodCode fixedLL := by
  refine ⟨?_, 8, by decide +kernel, by decide⟩
  have : ∀ b, b < 16 → nextCode fixedLL b + blCount fixedLL b ≤ 2 ^ b := by decide +kernel
  exact fun b hb => this b (by omega)

theorem good_fixedDL : GoodCode (List.replicate 30 5) := by
  refine ⟨?_, 5, by decide, by decide⟩
  have : ∀ b, b < 16 → nextCode (List.replicate 30 5) b + blCount (List.replicate 30 5) b ≤ 2 ^ b := by decide +kernel
  exact fun b hb => this b (by omega)

theorem buildFixed_ok : ∃ lt dt, buildFixed = ok (lt, dt) ∧ lt.For fixedLL ∧ dt.For (List.replicate 30 5) := by
  obtain ⟨_, lt, i1, b1, f1⟩ := HTree.build_c 288 fixedLL (by omega) (by decide +kernel) (by decide +kernel) good_fixedLL
  obtain ⟨_, dt, i2, b2, f2⟩ := HTree.build_c 30 (List.replicate 30 5) (by omega) (by decide) (by decide) good_fixedDL
  refine ⟨lt, dt, ?_, f1, f2⟩
  unfold buildFixed
  simp only [i1, i2, ok_bind, fixedSizes_ll, fixedSizes_dl, b1, b2, built, pure_eq]

theorem codeWord_fixedDL (j : Nat) (hj : j < 30) (w : List Bool) : CodeWord fixedDL j w ↔ CodeWord (List.replicate 30 5) j w := by
  have h1 : fixedDL[j]? = some 5 := by rw [fixedDL, List.getElem?_replicate, if_pos (by omega)]
  have h2 : (List.replicate 30 5)[j]? = some 5 := by rw [List.getElem?_replicate, if_pos hj]
  have h3 : symCode fixedDL j 5 = symCode (List.replicate 30 5) j 5 := by
    have hn : nextCode fixedDL 5 = 0 := by decide +kernel
    have hn2 : nextCode (List.replicate 30 5) 5 = 0 := by decide +kernel
    have hm : min j 32 = j := by omega
    have hm2 : min j 30 = j := by omega
    unfold fixedDL at hn ⊢
    simp only [symCode, hn, hn2, List.take_replicate, List.count_replicate_self, hm, hm2]
  constructor
  · rintro ⟨l, e, hl, rfl⟩
    rw [h1] at e; cases e
    exact ⟨5, h2, by omega, by rw [h3]⟩
  · rintro ⟨l, e, hl, rfl⟩
    rw [h2] at e; cases e
    exact ⟨5, h1, by omega, by rw [h3]⟩

theorem Codes.congr {ll dl dl' : List Nat} (hc : ∀ j w, j < 30 → CodeWord dl j w → CodeWord dl' j w) {out bits out'}
    (h : Codes ll dl out bits out') : Codes ll dl' out bits out' := by
  induction h with
  | eob h => exact .eob h
  | lit b h _ ih => exact .lit b h ih
  | copy k e j x h1 h2 h3 h4 h5 h6 h7 _ ih => exact .copy k e j x h1 h2 h3 h4 (hc _ _ h4 h5) h6 h7 ih

/-! ## matches -/

theorem copyMatch_succ (out : Bytes) (dist n : Nat) (h0 : 0 < dist) (h : dist ≤ out.length) :
    copyMatch (out ++ [out[out.length - dist]'(by omega)]) dist n = copyMatch out dist (n + 1) := by
  unfold copyMatch
  rw [List.range_succ_eq_map, List.map_cons, List.map_map, List.append_assoc]
  congr 1
  rw [List.singleton_append]
  congr 1
  · simp only [Nat.zero_mod, Nat.add_zero, List.getD_eq_getElem?_getD]
    rw [List.getElem?_eq_getElem (by omega)]; rfl
  · apply List.map_congr_left
    intro i _
    simp only [Function.comp, List.length_append, List.length_singleton, List.getD_eq_getElem?_getD]
    have hm := Nat.mod_lt i h0
    have hs : (i + 1) % dist = if i % dist + 1 = dist then 0 else i % dist + 1 := by
      rw [Nat.add_mod]
      by_cases h1 : dist = 1
      · subst h1; simp [Nat.mod_one]
      · rw [Nat.mod_eq_of_lt (by omega : 1 < dist)]
        split
        · rename_i he; rw [he, Nat.mod_self]
        · rw [Nat.mod_eq_of_lt (by omega)]
    rw [show i.succ = i + 1 from rfl, hs]
    split
    · rename_i he
      rw [show out.length + 1 - dist + i % dist = out.length by omega, List.getElem?_append_right (by omega)]
      rw [List.getElem?_eq_getElem (by omega : out.length - dist + 0 < out.length)]
      simp
    · rw [show out.length + 1 - dist + i % dist = out.length - dist + (i % dist + 1) by omega,
        List.getElem?_append_left (by omega)]

theorem copyLoop_eq (cap dist n : Nat) (out : Bytes) (h0 : 0 < dist) (h : dist ≤ out.length) (hc : out.length + n ≤ cap) :
    copyLoop cap dist n out = ok (copyMatch out dist n) := by
  induction n generalizing out with
  | zero => simp [copyLoop, copyMatch]
  | succ n ih =>
    have hlt : out.length - dist < out.length := by omega
    simp only [copyLoop, if_neg (show ¬ out.length < dist by omega), rd_lt hlt, ok_bind, push, if_pos (show out.length < cap by omega)]
    rw [ih _ (by simp; omega) (by simp; omega), copyMatch_succ out dist n h0 h]

theorem length_copyMatch (out : Bytes) (d n : Nat) : (copyMatch out d n).length = out.length + n := by simp [copyMatch]

theorem lenTables (k : Nat) (h : k < 29) : literalExtra[k]? = some (lenExtra k) ∧ literalBase[k]? = some (lenBase k) ∧
    lenExtra k ≤ 5 ∧ 3 ≤ lenBase k ∧ lenBase k ≤ 258 := by
  have : ∀ k, k < 29 → literalExtra[k]? = some (lenExtra k) ∧ literalBase[k]? = some (lenBase k) ∧
    lenExtra k ≤ 5 ∧ 3 ≤ lenBase k ∧ lenBase k ≤ 258 := by decide +kernel
  exact this k h

theorem distTables (j : Nat) (h : j < 30) : distanceExtra[j]? = some (distExtra j) ∧ distanceBase[j]? = some (distBase j) ∧
    distExtra j ≤ 13 ∧ 1 ≤ distBase j ∧ distBase j ≤ 24577 := by
  have : ∀ j, j < 30 → distanceExtra[j]? = some (distExtra j) ∧ distanceBase[j]? = some (distBase j) ∧
    distExtra j ≤ 13 ∧ 1 ≤ distBase j ∧ distBase j ≤ 24577 := by decide +kernel
  exact this j h

theorem lt_pow {e n m : Nat} (h : e < 2 ^ n) (hn : n ≤ m) : e < 2 ^ m :=
  Nat.lt_of_lt_of_le h (Nat.pow_le_pow_right (by omega) hn)

theorem decodeMatch_c {dt : HTree} {dl : List Nat} (hdt : dt.For dl) {s : BitStream} (hw : s.WF) {k e j x cap : Nat} {v rest : List Bool} {out : Bytes}
    (hk : k < 29) (he : e < 2 ^ lenExtra k) (hj : j < 30) (hv : CodeWord dl j v) (hx : x < 2 ^ distExtra j)
    (hd : distBase j + x ≤ out.length) (hcap : out.length + (lenBase k + e) ≤ cap)
    (hb : s.bits = natBits (lenExtra k) e ++ (v ++ (natBits (distExtra j) x ++ rest))) :
    ∃ s', decodeMatch dt cap (257 + k) s out = ok (s', copyMatch out (distBase j + x) (lenBase k + e)) ∧
      After s s' (natBits (lenExtra k) e ++ (v ++ natBits (distExtra j) x)) := by
  obtain ⟨t1, t2, t3, t4, t5⟩ := lenTables k hk
  obtain ⟨u1, u2, u3, u4, u5⟩ := distTables j hj
  have he5 := lt_pow he t3
  have hx13 := lt_pow hx u3
  obtain ⟨s1, e1, a1⟩ := getVal_c hw (by omega) he hb
  have hb1 := a1.rest hb
  obtain ⟨s2, e2, a2⟩ := HTree.getSym_c hdt a1.wf hv hb1
  have hb2 := a2.rest hb1
  obtain ⟨s3, e3, a3⟩ := getVal_c a2.wf (by omega) hx hb2
  refine ⟨s3, ?_, a1.trans (a2.trans a3)⟩
  unfold decodeMatch
  simp only [show 257 + k - 257 = k by omega, t1, t2, ofMem_some, ok_bind, Nat.mod_eq_of_lt (show lenExtra k < 256 by omega), e1, e2,
    u1, u2, Nat.mod_eq_of_lt (show distExtra j < 256 by omega), e3,
    Nat.mod_eq_of_lt (show lenBase k + e < 2 ^ 16 by omega), Nat.mod_eq_of_lt (show distBase j + x < 2 ^ 16 by omega),
    require_true hd, require_true hcap, copyLoop_eq cap _ _ out (show 0 < distBase j + x by omega) hd hcap, pure_eq]

theorem decodeMatch_s {dt : HTree} {dl : List Nat} (hdt : dt.For dl) (hdl : dl.length ≤ 30) {s : BitStream} (hw : s.WF) {k cap : Nat} {out : Bytes}
    (hk : k < 29) :
    decodeMatch dt cap (257 + k) s out = err ∨ ∃ e j x v s',
      decodeMatch dt cap (257 + k) s out = ok (s', copyMatch out (distBase j + x) (lenBase k + e)) ∧
      e < 2 ^ lenExtra k ∧ j < 30 ∧ CodeWord dl j v ∧ x < 2 ^ distExtra j ∧ distBase j + x ≤ out.length ∧
      out.length + (lenBase k + e) ≤ cap ∧ After s s' (natBits (lenExtra k) e ++ (v ++ natBits (distExtra j) x)) := by
  obtain ⟨t1, t2, t3, t4, t5⟩ := lenTables k hk
  unfold decodeMatch
  simp only [show 257 + k - 257 = k by omega, t1, t2, ofMem_some, ok_bind, Nat.mod_eq_of_lt (show lenExtra k < 256 by omega)]
  rcases getVal_s hw (n := lenExtra k) (by omega) with e1 | ⟨e, s1, e1, he, a1⟩
  · simp [e1]
  have he5 := lt_pow he t3
  simp only [e1, ok_bind]
  rcases HTree.getSym_s hdt a1.wf with e2 | ⟨j, v, s2, e2, hv, a2⟩
  · simp [e2]
  have hj : j < 30 := by have := hv.lt; omega
  obtain ⟨u1, u2, u3, u4, u5⟩ := distTables j hj
  simp only [e2, ok_bind, u1, u2, ofMem_some, Nat.mod_eq_of_lt (show distExtra j < 256 by omega)]
  rcases getVal_s a2.wf (n := distExtra j) (by omega) with e3 | ⟨x, s3, e3, hx, a3⟩
  · simp [e3]
  have hx13 := lt_pow hx u3
  simp only [e3, ok_bind, Nat.mod_eq_of_lt (show lenBase k + e < 2 ^ 16 by omega),
    Nat.mod_eq_of_lt (show distBase j + x < 2 ^ 16 by omega)]
  by_cases hd : distBase j + x ≤ out.length
  case neg => simp only [require_false hd, err_bind, true_or]
  by_cases hcap : out.length + (lenBase k + e) ≤ cap
  case neg => simp only [require_true hd, require_false hcap, ok_bind, err_bind, true_or]
  right
  refine ⟨e, j, x, v, s3, ?_, he, hj, hv, hx, hd, hcap, a1.trans (a2.trans a3)⟩
  simp only [require_true hd, require_true hcap, ok_bind,
    copyLoop_eq cap _ _ out (show 0 < distBase j + x by omega) hd hcap, pure_eq]

/-! ## Huffman blocks -/

theorem Codes.mono {ll dl : List Nat} {out bits out'} (h : Codes ll dl out bits out') : out.length ≤ out'.length := by
  induction h with
  | eob _ => exact Nat.le_refl _
  | lit b _ _ ih => simp at ih; omega
  | copy k e j x _ _ _ _ _ _ _ _ ih => rw [length_copyMatch] at ih; omega

theorem Codes.eob_word {ll dl : List Nat} {out bits out'} (h : Codes ll dl out bits out') : ∃ w, CodeWord ll 256 w := by
  induction h with
  | eob h => exact ⟨_, h⟩
  | lit _ _ _ ih => exact ih
  | copy _ _ _ _ _ _ _ _ _ _ _ _ ih => exact ih

theorem measure_lt {s s' : BitStream} {bs : List Bool} (a : After s s' bs) (h : 0 < bs.length) :
    s'.size + 8 * (s'.data.length - s'.off) < s.size + 8 * (s.data.length - s.off) := by
  have := a.length
  rw [length_bits, length_bits] at this
  omega

theorem decodeHuffman_c {lt dt : HTree} {ll dl : List Nat} (hlt : lt.For ll) (hdt : dt.For dl) {cap : Nat}
    {out : Bytes} {bits : List Bool} {out' : Bytes} (h : Codes ll dl out bits out') :
    ∀ (s : BitStream) (rest : List Bool), s.WF → s.bits = bits ++ rest → out'.length ≤ cap →
    ∃ s', decodeHuffman lt dt cap s out = ok (s', out') ∧ After s s' bits := by
  induction h with
  | eob h =>
    intro s rest hw hb hcap
    obtain ⟨s1, e1, a1⟩ := HTree.getSym_c hlt hw h hb
    refine ⟨s1, ?_, a1⟩
    rw [decodeHuffman]
    simp [huffmanStep, e1, require_true]
  | @lit out w bits out' b h hc ih =>
    intro s rest hw hb hcap
    rw [List.append_assoc] at hb
    obtain ⟨s1, e1, a1⟩ := HTree.getSym_c hlt hw h hb
    obtain ⟨s2, e2, a2⟩ := ih s1 rest a1.wf (a1.rest hb) hcap
    refine ⟨s2, ?_, a1.trans a2⟩
    have hm := measure_lt a1 (HTree.CodeWord.pos h)
    have hmono := Codes.mono hc
    simp only [List.length_append, List.length_singleton] at hmono
    have hb256 := b.toNat_lt
    have hstep : huffmanStep lt dt cap s out = ok (false, s1, out ++ [b]) := by
      simp only [huffmanStep, e1, ok_bind, if_pos (show b.toNat < 256 by omega), require_true (show ¬ out.length ≥ cap by omega),
        push, if_pos (show out.length < cap by omega), UInt8.ofNat_toNat, pure_eq]
    rw [decodeHuffman]
    simp only [hstep]
    rw [dif_pos hm, e2]
  | @copy out w v bits out' k e j x h1 h2 h3 h4 h5 h6 h7 hc ih =>
    intro s rest hw hb hcap
    simp only [List.append_assoc] at hb
    obtain ⟨s1, e1, a1⟩ := HTree.getSym_c hlt hw h2 hb
    have hmono := Codes.mono hc
    rw [length_copyMatch] at hmono
    obtain ⟨s2, e2, a2⟩ := decodeMatch_c hdt a1.wf h1 h3 h4 h5 h6 h7 (show _ ≤ cap by omega) (a1.rest' hb)
    have hb2 : s2.bits = bits ++ rest := by
      apply (a1.trans a2).rest'
      rw [hb]; simp only [List.append_assoc]
    obtain ⟨s3, e3, a3⟩ := ih s2 rest a2.wf hb2 hcap
    have hpos := HTree.CodeWord.pos h2
    have hm := measure_lt (a1.trans a2) (by rw [List.length_append]; omega)
    refine ⟨s3, ?_, by have := (a1.trans a2).trans a3; simpa only [List.append_assoc] using this⟩
    have hstep : huffmanStep lt dt cap s out = ok (false, s2, copyMatch out (distBase j + x) (lenBase k + e)) := by
      simp only [huffmanStep, e1, ok_bind, if_neg (show ¬ 257 + k < 256 by omega),
        if_pos (show 257 + k > 256 ∧ 257 + k < 286 by omega), e2, pure_eq]
    rw [decodeHuffman]
    simp only [hstep]
    rw [dif_pos hm, e3]

theorem decodeHuffman_s {lt dt : HTree} {ll dl : List Nat} (hlt : lt.For ll) (hdt : dt.For dl) (hdl : dl.length ≤ 30) {cap : Nat}
    (s : BitStream) (out : Bytes) (hw : s.WF) (hcap : out.length ≤ cap) :
    decodeHuffman lt dt cap s out = err ∨ ∃ s' bits out', decodeHuffman lt dt cap s out = ok (s', out') ∧
      Codes ll dl out bits out' ∧ out'.length ≤ cap ∧ After s s' bits := by
  induction hk : s.bits.length using Nat.strongRecOn generalizing s out with
  | ind n ih =>
    rw [decodeHuffman]
    rcases HTree.getSym_s hlt hw with e1 | ⟨i, w, s1, e1, hc, a1⟩
    · have hstep : huffmanStep lt dt cap s out = err := by simp [huffmanStep, e1]
      simp [hstep]
    have hpos := HTree.CodeWord.pos hc
    have hl1 := a1.length
    by_cases h1 : i < 256
    · by_cases hfull : out.length ≥ cap
      · have hstep : huffmanStep lt dt cap s out = err := by simp [huffmanStep, e1, h1, require, hfull]
        simp [hstep]
      · have hstep : huffmanStep lt dt cap s out = ok (false, s1, out ++ [UInt8.ofNat i]) := by
          simp only [huffmanStep, e1, ok_bind, if_pos h1, require_true hfull, push, if_pos (show out.length < cap by omega), pure_eq]
        simp only [hstep]
        rw [dif_pos (measure_lt a1 hpos)]
        have hto : (UInt8.ofNat i).toNat = i := UInt8.toNat_ofNat_of_lt' h1
        rcases ih _ (by omega) s1 (out ++ [UInt8.ofNat i]) a1.wf (by simp; omega) rfl with e2 | ⟨s2, bits, out', e2, hC, hle, a2⟩
        · exact Or.inl e2
        · exact Or.inr ⟨s2, _, out', e2, .lit (UInt8.ofNat i) (by rw [hto]; exact hc) hC, hle, a1.trans a2⟩
    · by_cases h2 : i > 256 ∧ i < 286
      · obtain ⟨k, rfl⟩ : ∃ k, i = 257 + k := ⟨i - 257, by omega⟩
        rcases decodeMatch_s hdt hdl a1.wf (cap := cap) (out := out) (show k < 29 by omega) with
          e2 | ⟨e, j, x, v, s2, e2, he, hj, hv, hx, hd, hcp, a2⟩
        · have hstep : huffmanStep lt dt cap s out = err := by
            simp only [huffmanStep, e1, ok_bind, if_neg h1, if_pos h2, e2, err_bind]
          simp [hstep]
        · have hstep : huffmanStep lt dt cap s out = ok (false, s2, copyMatch out (distBase j + x) (lenBase k + e)) := by
            simp only [huffmanStep, e1, ok_bind, if_neg h1, if_pos h2, e2, pure_eq]
          have hl2 := (a1.trans a2).length
          rw [List.length_append] at hl2
          simp only [hstep]
          rw [dif_pos (measure_lt (a1.trans a2) (by rw [List.length_append]; omega))]
          rcases ih _ (by omega) s2 (copyMatch out (distBase j + x) (lenBase k + e)) a2.wf (by rw [length_copyMatch]; exact hcp) rfl with
            e3 | ⟨s3, bits, out', e3, hC, hle, a3⟩
          · exact Or.inl e3
          · refine Or.inr ⟨s3, _, out', e3, .copy k e j x (by omega) hc he hj hv hx hd hC, hle, ?_⟩
            have := (a1.trans a2).trans a3
            simpa only [List.append_assoc] using this
      · by_cases h3 : i = 256
        · subst h3
          have hstep : huffmanStep lt dt cap s out = ok (true, s1, out) := by
            simp [huffmanStep, e1, require_true]
          simp only [hstep]
          exact Or.inr ⟨s1, w, out, rfl, .eob hc, hcap, a1⟩
        · have hstep : huffmanStep lt dt cap s out = err := by
            simp only [huffmanStep, e1, ok_bind, if_neg h1, if_neg h2, require_false h3, err_bind]
          simp [hstep]

end Deflate
end Verif
