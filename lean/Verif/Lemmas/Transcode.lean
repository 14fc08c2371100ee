import Verif.Model.FileRead
import Verif.Lemmas.Utf
/-!
# Lemmas: lookups by the same characters in two encodings
-/
namespace Verif
open Res
namespace Transcode
open BTree FsTree Name Records NameLookup Spec

/-- how characters are stored in code units that a decoder reads -/
structure Enc {α : Type} (dq : Decoder α) where
  enc : Nat → List α
  next : ∀ c r, Scalar c → dq.next (enc c ++ r) = some (c, r)
  nul : ∀ c, Scalar c → ∃ x, (enc c).getLast? = some x ∧ dq.isNul x = (c == 0)
  one : ∀ c, c = 0x2f ∨ c = 0 → (enc c).length = 1

def Enc.str {α : Type} {dq : Decoder α} (e : Enc dq) (s : List Nat) : List α := s.flatMap e.enc

def utf8Enc : Enc utf8 where
  enc := Utf8.encodeChar
  next c r h := utf8_encode c h r
  nul c h := by
    have hc : c < 0x110000 := by unfold Scalar at h; omega
    unfold Utf8.encodeChar
    have key : ∀ n : Nat, n < 256 → ((UInt8.ofNat n == (0 : UInt8)) = (n == 0)) := by
      intro n hn
      rw [Bool.eq_iff_iff, beq_iff_eq, beq_iff_eq, ← UInt8.toNat_inj, UInt8.toNat_ofNat']
      show n % 2 ^ 8 = 0 ↔ n = 0
      omega
    have hk : ((0x80 + c % 64) == 0) = false := by
      simp only [beq_eq_false_iff_ne]; omega
    split
    · exact ⟨_, rfl, key c (by omega)⟩
    · have hz : (c == 0) = false := by simp only [beq_eq_false_iff_ne]; omega
      rw [hz]
      split
      · exact ⟨_, rfl, (key _ (by omega)).trans hk⟩
      · split
        · exact ⟨_, rfl, (key _ (by omega)).trans hk⟩
        · exact ⟨_, rfl, (key _ (by omega)).trans hk⟩
  one c h := by rcases h with rfl | rfl <;> rfl

def utf16Enc : Enc utf16 where
  enc := Utf16.encodeChar
  next c r h := utf16_encode c h r
  nul c h := by
    have hc : c < 0x110000 := by unfold Scalar at h; omega
    have key : ∀ n : Nat, n < 65536 → ((UInt16.ofNat n == (0 : UInt16)) = (n == 0)) := by
      intro n hn
      rw [Bool.eq_iff_iff, beq_iff_eq, beq_iff_eq, ← UInt16.toNat_inj, UInt16.toNat_ofNat']
      show n % 2 ^ 16 = 0 ↔ n = 0
      omega
    unfold Utf16.encodeChar
    split
    · exact ⟨_, rfl, key c (by omega)⟩
    · refine ⟨_, rfl, (key _ (by omega)).trans ?_⟩
      have h1 : ((0xdc00 + (c - 0x10000) % 1024) == 0) = false := by
        simp only [beq_eq_false_iff_ne]; omega
      have h2 : (c == 0) = false := by simp only [beq_eq_false_iff_ne]; omega
      rw [h1, h2]
  one c h := by rcases h with rfl | rfl <;> rfl

def Scalars (s : List Nat) : Prop := ∀ c ∈ s, Scalar c

section
variable {α : Type} {dq : Decoder α} (e : Enc dq)

theorem enc_ne_nil (c : Nat) (h : Scalar c) : e.enc c ≠ [] := by
  intro hn
  obtain ⟨x, hx, _⟩ := e.nul c h
  rw [hn] at hx
  cases hx

theorem str_cons (c : Nat) (s : List Nat) : e.str (c :: s) = e.enc c ++ e.str s := rfl

theorem str_append (s t : List Nat) : e.str (s ++ t) = e.str s ++ e.str t := List.flatMap_append

theorem str_eq_nil (s : List Nat) (h : Scalars s) : e.str s = [] ↔ s = [] := by
  cases s with
  | nil => simp [Enc.str]
  | cons c s =>
    rw [str_cons]
    have := enc_ne_nil e c (h c (List.mem_cons_self ..))
    simp [this]

theorem next_str (c : Nat) (s : List Nat) (h : Scalar c) :
    dq.next (e.str (c :: s)) = some (c, e.str s) := e.next c (e.str s) h

theorem str_getLast (s : List Nat) (c : Nat) (h : Scalar c) :
    ∃ x, (e.str (s ++ [c])).getLast? = some x ∧ dq.isNul x = (c == 0) := by
  obtain ⟨x, hx, hz⟩ := e.nul c h
  refine ⟨x, ?_, hz⟩
  rw [str_append, str_cons, List.getLast?_append]
  simp [Enc.str, hx]

theorem stripNul_str (s : List Nat) (h : Scalars s) :
    stripNul dq.isNul (e.str s) = e.str (stripNul (fun c => c == 0) s) := by
  rcases List.eq_nil_or_concat s with rfl | ⟨t, c, rfl⟩
  · rfl
  · rw [List.concat_eq_append] at h ⊢
    obtain ⟨x, hx, hz⟩ := str_getLast e t c (h c (by simp))
    unfold stripNul
    rw [hx]
    simp only [List.getLast?_append, List.getLast?_singleton, Option.some_or, hz]
    split
    · rename_i h0
      rw [List.dropLast_concat]
      have h0 : c = 0 := by simpa using h0
      subst h0
      have h1 := e.one 0 (.inr rfl)
      rw [str_append, List.dropLast_append_of_ne_nil (by simpa [Enc.str] using enc_ne_nil e 0 (by decide))]
      rw [show (e.str [0]).dropLast = [] by
        rw [← List.length_eq_zero_iff, List.length_dropLast]
        simp [Enc.str, h1]]
      simp
    · rfl

end

theorem stripNul_mem {s : List Nat} (h : Scalars s) : Scalars (stripNul (fun c => c == 0) s) := by
  unfold stripNul
  split
  · split
    · exact fun c hc => h c ((List.dropLast_subset s) hc)
    · exact h
  · exact h

variable {α β : Type} {d1 : Decoder α} {d2 : Decoder β} (e1 : Enc d1) (e2 : Enc d2)

theorem hashLoop_cons {α : Type} {dq : Decoder α} (e : Enc dq) (folding : Bool) (b : BitVec 32) (c : Nat) (s : List Nat)
    (h : Scalars (c :: s)) :
    hashLoop dq folding b (e.str (c :: s)) = if c = 0 then ok b else (do
      let cs ← hashCharacters folding c
      let t ← cs.foldlM hashCharacter b
      hashLoop dq folding t (e.str s)) := by
  have n := next_str e c s (h c (List.mem_cons_self ..))
  conv => lhs; rw [hashLoop.eq_def]
  rw [if_neg (by rw [str_eq_nil e _ h]; simp)]
  split
  · rename_i hn; rw [n] at hn; cases hn
  · rename_i c1 r1 hn
    rw [n] at hn
    simp only [Option.some.injEq, Prod.mk.injEq] at hn
    obtain ⟨rfl, rfl⟩ := hn
    rfl

theorem hashLoop_same (folding : Bool) : ∀ (s : List Nat), Scalars s → ∀ (b : BitVec 32),
    hashLoop d1 folding b (e1.str s) = hashLoop d2 folding b (e2.str s) := by
  intro s
  induction s with
  | nil => intro _ b; rw [hashLoop, hashLoop]; rfl
  | cons c s ih =>
    intro h b
    have hs : Scalars s := fun c hc => h c (List.mem_cons_of_mem _ hc)
    rw [hashLoop_cons e1 folding b c s h, hashLoop_cons e2 folding b c s h]
    simp only [ih hs]

theorem nameHash_same (folding : Bool) (s : List Nat) (h : Scalars s) :
    nameHash d1 folding (e1.str s) = nameHash d2 folding (e2.str s) := by
  rw [nameHash, nameHash, hashLoop_same e1 e2 folding s h]

theorem compareLoop_same (dn : Decoder UInt8) (folding : Bool) : ∀ (s : List Nat), Scalars s →
    ∀ (name : Bytes), compareLoop dn d1 folding name (e1.str s) = compareLoop dn d2 folding name (e2.str s) := by
  intro s
  induction s with
  | nil => intro _ name; rw [compareLoop, compareLoop]; simp [Enc.str]
  | cons c s ih =>
    intro h name
    have hc := h c (List.mem_cons_self ..)
    have hs : Scalars s := fun c hc => h c (List.mem_cons_of_mem _ hc)
    have z1 : e1.str (c :: s) ≠ [] := by rw [ne_eq, str_eq_nil e1 _ h]; simp
    have z2 : e2.str (c :: s) ≠ [] := by rw [ne_eq, str_eq_nil e2 _ h]; simp
    rw [compareLoop.eq_def, compareLoop.eq_def dn d2]
    simp only [z1, z2, or_false, ne_eq, not_false_eq_true, if_true]
    split
    · rfl
    · cases hn : dn.next name with
      | none => rfl
      | some r =>
        obtain ⟨n, name'⟩ := r
        rw [next_str e1 c s hc, next_str e2 c s hc]
        simp only
        congr 1; funext qs; congr 1; funext ns
        split
        · exact ih hs name'
        · rfl

theorem compareRecord_same (dn : Decoder UInt8) (folding : Bool) (name : Bytes) (hash : Nat) (s : List Nat)
    (h : Scalars s) (strHash : Nat) :
    compareRecord dn d1 folding name hash (e1.str s) strHash =
      compareRecord dn d2 folding name hash (e2.str s) strHash := by
  unfold compareRecord compareName
  rw [stripNul_str e1 s h, stripNul_str e2 s h, compareLoop_same e1 e2 dn folding _ (stripNul_mem h)]

theorem lookupLeaf_same (dn : Decoder UInt8) (folding : Bool) (parent : Nat) (s : List Nat) (h : Scalars s)
    (strHash : Nat) (es : List Entry) :
    lookupLeaf dn d1 folding parent (e1.str s) strHash es = lookupLeaf dn d2 folding parent (e2.str s) strHash es := by
  induction es with
  | nil => rfl
  | cons e es ih => simp only [lookupLeaf, compareRecord_same e1 e2 dn folding _ _ s h, ih]

theorem lookupBranch_same (dn : Decoder UInt8) (parent : Nat) (s : List Nat) (h : Scalars s)
    (strHash : Nat) (es : List Entry) : ∀ p,
    lookupBranch dn d1 parent (e1.str s) strHash es p = lookupBranch dn d2 parent (e2.str s) strHash es p := by
  induction es with
  | nil => intro p; rfl
  | cons e es ih => intro p; simp only [lookupBranch, compareRecord_same e1 e2 dn false _ _ s h, ih]

theorem lookupNode_same (dn : Decoder UInt8) (folding : Bool) (sub : Bytes → Res Node) (parent : Nat)
    (s : List Nat) (h : Scalars s) (strHash : Nat) (fuel : Nat) : ∀ n,
    lookupNode dn d1 folding sub parent (e1.str s) strHash fuel n =
      lookupNode dn d2 folding sub parent (e2.str s) strHash fuel n := by
  induction fuel with
  | zero => intro n; simp only [lookupNode, lookupLeaf_same e1 e2 dn folding parent s h]
  | succ fuel ih =>
    intro n
    simp only [lookupNode, lookupLeaf_same e1 e2 dn folding parent s h, lookupBranch_same e1 e2 dn parent s h, ih]

theorem lookupName_same (dn : Decoder UInt8) (folding : Bool) (sub : Bytes → Res Node) (root : Node)
    (parent : Nat) (s : List Nat) (h : Scalars s) :
    lookupName dn d1 folding sub root parent (e1.str s) = lookupName dn d2 folding sub root parent (e2.str s) := by
  simp only [lookupName, nameHash_same e1 e2 folding s h, lookupNode_same e1 e2 dn folding sub parent s h]

/-- the characters before the first separator and those behind it -/
def split : List Nat → List Nat × List Nat
  | [] => ([], [])
  | c :: s => if c = 0x2f ∨ c = 0 then ([], s) else (c :: (split s).1, (split s).2)

theorem split_length (s : List Nat) (h : s ≠ []) : (split s).2.length < s.length := by
  induction s with
  | nil => exact absurd rfl h
  | cons c s ih =>
    rw [split]
    split
    · simp
    · cases s with
      | nil => simp [split]
      | cons d s => have := ih (by simp); simp only [List.length_cons] at this ⊢; omega

theorem split_mem (s : List Nat) (h : Scalars s) : Scalars (split s).1 ∧ Scalars (split s).2 := by
  induction s with
  | nil => exact ⟨h, h⟩
  | cons c s ih =>
    have ih := ih fun c hc => h c (List.mem_cons_of_mem _ hc)
    rw [split]
    split
    · exact ⟨(by intro c hc; cases hc), fun c hc => h c (List.mem_cons_of_mem _ hc)⟩
    · refine ⟨?_, ih.2⟩
      intro d hd
      rcases List.mem_cons.mp hd with rfl | hd
      · exact h _ (List.mem_cons_self ..)
      · exact ih.1 d hd

theorem segment_str {α : Type} {dq : Decoder α} (e : Enc dq) : ∀ (s a : List Nat), Scalars s →
    segment dq (e.str (a ++ s)) (e.str s) = ok (e.str (a ++ (split s).1), e.str (split s).2) := by
  intro s
  induction s with
  | nil => intro a _; rw [segment.eq_def]; simp [Enc.str, split]
  | cons c s ih =>
    intro a h
    have hc := h c (List.mem_cons_self ..)
    have hs : Scalars s := fun c hc => h c (List.mem_cons_of_mem _ hc)
    rw [segment.eq_def, if_neg (by rw [str_eq_nil e _ h]; simp)]
    split
    · rename_i hn; rw [next_str e c s hc] at hn; cases hn
    · rename_i c1 r1 hn
      rw [next_str e c s hc] at hn
      simp only [Option.some.injEq, Prod.mk.injEq] at hn
      obtain ⟨rfl, rfl⟩ := hn
      rw [split]
      by_cases hsep : c = 0x2f ∨ c = 0
      · rw [if_pos hsep, if_pos hsep]
        have h1 := e.one c hsep
        simp only [List.append_nil]
        rw [str_append, str_cons]
        congr 2
        rw [List.take_append_of_le_length (by simp only [List.length_append, h1]; omega)]
        exact List.take_of_length_le (by simp only [List.length_append, h1]; omega)
      · rw [if_neg hsep, if_neg hsep]
        have := ih (a ++ [c]) hs
        rw [List.append_assoc, List.append_assoc] at this
        exact this

theorem pathLoop_str {α : Type} {dq : Decoder α} (e : Enc dq) (l : Nat → List α → Res (Option DirectoryRecord))
    (s : List Nat) (h : Scalars s) (i : Nat) (r : Option DirectoryRecord) :
    pathLoop dq l i r (e.str s) =
      if s = [] then ok (some (i, r))
      else if (split s).1 = [] then ok none
      else (do
        let q ← l i (e.str (split s).1)
        match q with
        | none => return none
        | some q => pathLoop dq l q.identifier (some q) (e.str (split s).2)) := by
  by_cases hs : s = []
  · subst hs
    rw [pathLoop.eq_def]
    rfl
  · have s1 := segment_str e s [] h
    simp only [List.nil_append] at s1
    have hm := split_mem s h
    conv => lhs; rw [pathLoop.eq_def]
    rw [dif_neg (by rw [str_eq_nil e _ h]; exact hs), if_neg hs]
    split
    · rename_i hx; rw [s1] at hx; cases hx
    · rename_i hx; rw [s1] at hx; cases hx
    · rename_i g1 t1 hx
      rw [s1] at hx
      simp only [ok.injEq, Prod.mk.injEq] at hx
      obtain ⟨rfl, rfl⟩ := hx
      simp only [str_eq_nil e _ hm.1]
      congr 2

theorem pathLoop_same (l1 : Nat → List α → Res (Option DirectoryRecord)) (l2 : Nat → List β → Res (Option DirectoryRecord))
    (hl : ∀ i s, Scalars s → l1 i (e1.str s) = l2 i (e2.str s)) : ∀ (n : Nat) (s : List Nat), s.length ≤ n → Scalars s →
    ∀ (i : Nat) (r : Option DirectoryRecord), pathLoop d1 l1 i r (e1.str s) = pathLoop d2 l2 i r (e2.str s) := by
  intro n
  induction n with
  | zero =>
    intro s hn h i r
    have : s = [] := List.length_eq_zero_iff.mp (by omega)
    rw [pathLoop_str e1 l1 s h, pathLoop_str e2 l2 s h, if_pos this, if_pos this]
  | succ n ih =>
    intro s hn h i r
    rw [pathLoop_str e1 l1 s h, pathLoop_str e2 l2 s h]
    by_cases hs : s = []
    · rw [if_pos hs, if_pos hs]
    · have hlen := split_length s hs
      have hm := split_mem s h
      rw [hl i _ hm.1]
      simp only [fun i r => ih (split s).2 (by omega) hm.2 i r]

theorem head_str {α : Type} [DecidableEq α] {dq : Decoder α} (e : Enc dq) (separator : α) (hsep : e.enc 0x2f = [separator])
    (s : List Nat) (h : Scalars s) :
    (if (e.str s).head? = some separator then (e.str s).drop 1 else e.str s) =
      e.str (if s.head? = some 0x2f then s.drop 1 else s) := by
  cases s with
  | nil => simp [Enc.str]
  | cons c s =>
    have hc := h c (List.mem_cons_self ..)
    by_cases h2 : c = 0x2f
    · subst h2
      rw [str_cons, hsep]
      simp
    · have hne : (e.str (c :: s)).head? ≠ some separator := by
        intro hh
        have hn := next_str e c s hc
        have hs : ∃ t, e.str (c :: s) = separator :: t := by
          cases hx : e.str (c :: s) with
          | nil => rw [hx] at hh; cases hh
          | cons x t => rw [hx] at hh; simp only [List.head?_cons, Option.some.injEq] at hh; exact ⟨t, by rw [hh]⟩
        obtain ⟨t, ht⟩ := hs
        have hn2 := e.next 0x2f t (by decide)
        rw [hsep] at hn2
        rw [ht] at hn
        rw [show [separator] ++ t = separator :: t from rfl, hn] at hn2
        simp only [Option.some.injEq, Prod.mk.injEq] at hn2
        exact h2 hn2.1
      rw [if_neg hne]
      simp [h2]

theorem lookupPath_same [DecidableEq α] [DecidableEq β] (dn : Decoder UInt8) (sep1 : α) (sep2 : β)
    (h1 : e1.enc 0x2f = [sep1]) (h2 : e2.enc 0x2f = [sep2]) (folding : Bool) (v : Volume) (xid parent : Nat) (s : List Nat)
    (h : Scalars s) (hm1 : (e1.str s).length < 2 ^ 63) (hm2 : (e2.str s).length < 2 ^ 63)
    (hl : (e1.str s).length < 2 ↔ (e2.str s).length < 2) :
    lookupPath dn d1 sep1 folding v xid parent (e1.str s) = lookupPath dn d2 sep2 folding v xid parent (e2.str s) := by
  unfold lookupPath
  rw [require_true (by omega), require_true (by omega)]
  simp only [pure_eq, ok_bind]
  rw [head_str e1 sep1 h1 s h, head_str e2 sep2 h2 s h]
  congr 1; funext r
  cases r with
  | none => rfl
  | some root =>
    have hs : Scalars (if s.head? = some 0x2f then s.drop 1 else s) := by
      split
      · exact fun c hc => h c (List.mem_of_mem_drop hc)
      · exact h
    have hp := pathLoop_same e1 e2 (lookupName dn d1 folding (fsSub v xid) root) (lookupName dn d2 folding (fsSub v xid) root)
      (fun i s hs => lookupName_same e1 e2 dn folding (fsSub v xid) root i s hs) _ _ (Nat.le_refl _) hs parent none
    have hiff : ((e1.str s).length = 0 ∨ (e1.str s).length = 1) = ((e2.str s).length = 0 ∨ (e2.str s).length = 1) :=
      propext (by omega)
    simp only [hp, hiff]

end Transcode
end Verif
