import Verif.Lemmas.Name
import Verif.Lemmas.NameTrees
import Verif.Spec.NameHash
/-!
# Lemmas: the name tables agree with Unicode
-/
namespace Verif
open Res
namespace Name
open Spec (newer excluded)

/-! ## Search trees -/

namespace Tree
variable {β : Type}

def find : Tree β → Nat → Option β
  | leaf, _ => none
  | node l k v r, c =>
    match Nat.beq c k with
    | true => some v
    | false =>
      match Nat.ble c k with
      | true => find l c
      | false => find r c

def toList : Tree β → List (Nat × β)
  | leaf => []
  | node l k v r => toList l ++ (k, v) :: toList r

/-- keys are ascending and in [lo, hi) -/
def sorted (lo hi : Nat) : Tree β → Bool
  | leaf => true
  | node l k _ r => Nat.ble lo k && Nat.blt k hi && sorted lo k l && sorted (k + 1) hi r

theorem lookup_append (a b : List (Nat × β)) (c : Nat) : (a ++ b).lookup c = (a.lookup c).or (b.lookup c) := by
  induction a with
  | nil => simp [List.lookup]
  | cons p ps ih =>
    obtain ⟨k, v⟩ := p
    simp only [List.cons_append, List.lookup]
    cases c == k
    · exact ih
    · rfl

theorem lookup_out (t : Tree β) (lo hi c : Nat) (h : sorted lo hi t = true) (hc : c < lo ∨ hi ≤ c) : t.toList.lookup c = none := by
  induction t generalizing lo hi with
  | leaf => rfl
  | node l k v r ihl ihr =>
    simp only [sorted, Bool.and_eq_true, Nat.ble_eq, Nat.blt_eq] at h
    simp only [toList, lookup_append, List.lookup]
    rw [ihl lo k h.1.2 (by omega), ihr (k + 1) hi h.2 (by omega)]
    have : (c == k) = false := by simp; omega
    rw [this]
    rfl

theorem find_eq (t : Tree β) (lo hi c : Nat) (h : sorted lo hi t = true) : t.find c = t.toList.lookup c := by
  induction t generalizing lo hi with
  | leaf => rfl
  | node l k v r ihl ihr =>
    simp only [sorted, Bool.and_eq_true, Nat.ble_eq, Nat.blt_eq] at h
    simp only [toList, lookup_append, List.lookup, find]
    by_cases he : c = k
    · subst he
      rw [Nat.beq_refl, lookup_out l lo c c h.1.2 (by omega)]
      simp
    · have hb : Nat.beq c k = false := by
        cases hb : Nat.beq c k with
        | false => rfl
        | true => exact absurd (Nat.eq_of_beq_eq_true hb) he
      have hb' : (c == k) = false := by simp [he]
      rw [hb, hb']
      by_cases hle : c ≤ k
      · rw [Nat.ble_eq_true_of_le hle, ihl lo k h.1.2, lookup_out r (k + 1) hi c h.2 (by omega)]
        simp
      · have : Nat.ble c k = false := by
          cases hb : Nat.ble c k with
          | false => rfl
          | true => exact absurd (Nat.le_of_ble_eq_true hb) hle
        rw [this, ihr (k + 1) hi h.2, lookup_out l lo k c h.1.2 (by omega)]
        simp

end Tree

/-! ## Rows other than the code point itself -/

/-- the rows with a value, with their code points -/
def sparseRows {β γ : Type} (val : Nat → β → Option γ) : Nat → List β → List (Nat × γ)
  | _, [] => []
  | i, x :: xs =>
    match val i x with
    | some v => (i, v) :: sparseRows val (i + 1) xs
    | none => sparseRows val (i + 1) xs

theorem lookup_sparseRows {β γ : Type} (val : Nat → β → Option γ) (i : Nat) (t : List β) (c : Nat) :
    (sparseRows val i t).lookup c = if i ≤ c then t[c - i]?.bind (val c) else none := by
  induction t generalizing i with
  | nil => simp [sparseRows]
  | cons x xs ih =>
    have hrest : c ≠ i → (sparseRows val (i + 1) xs).lookup c = if i ≤ c then (x :: xs)[c - i]?.bind (val c) else none := by
      intro hne
      rw [ih]
      by_cases hi : i ≤ c
      · have e : c - i = (c - (i + 1)) + 1 := by omega
        rw [if_pos hi, if_pos (by omega), e, List.getElem?_cons_succ]
      · rw [if_neg hi, if_neg (by omega)]
    unfold sparseRows
    cases hv : val i x with
    | none =>
      by_cases he : c = i
      · subst he
        rw [ih, if_neg (by omega), if_pos (Nat.le_refl _)]
        simp [hv]
      · exact hrest he
    | some v =>
      simp only [List.lookup]
      by_cases he : c = i
      · subst he
        simp [hv]
      · have : (c == i) = false := by simp [he]
        rw [this]
        exact hrest he

/-- the tables have exactly the rows of their ranges -/
def exact {β : Type} (rs : List (Nat × Nat × List β)) : Prop := ∀ r ∈ rs, r.1 + r.2.2.length = r.2.1 + 1

/-- the ranges are disjoint -/
def disjoint {β : Type} (rs : List (Nat × Nat × List β)) : Prop := rs.Pairwise (fun a b => a.2.1 < b.1 ∨ b.2.1 < a.1)

theorem lookup_flat_none {β γ : Type} (val : Nat → β → Option γ) (rs : List (Nat × Nat × List β)) (hex : exact rs) (c : Nat)
    (h : ∀ r ∈ rs, ¬ (r.1 ≤ c ∧ c ≤ r.2.1)) : (rs.flatMap (fun r => sparseRows val r.1 r.2.2)).lookup c = none := by
  induction rs with
  | nil => rfl
  | cons r rs ih =>
    have hr := h r (List.mem_cons_self ..)
    have hx := hex r (List.mem_cons_self ..)
    rw [List.flatMap_cons, Tree.lookup_append, ih (fun r hr => hex r (List.mem_cons_of_mem _ hr)) (fun r hr => h r (List.mem_cons_of_mem _ hr)),
      lookup_sparseRows]
    by_cases hlo : r.1 ≤ c
    · rw [if_pos hlo, List.getElem?_eq_none (by omega)]
      rfl
    · rw [if_neg hlo]
      rfl

theorem readRanges_lookup {β γ : Type} (val : Nat → β → Option γ) (rs : List (Nat × Nat × List β)) (hex : exact rs) (hd : disjoint rs) (c : Nat) :
    ∃ r, readRanges rs c = ok r ∧ (rs.flatMap (fun r => sparseRows val r.1 r.2.2)).lookup c = r.bind (val c) := by
  induction rs with
  | nil => exact ⟨none, rfl, rfl⟩
  | cons r rs ih =>
    obtain ⟨lo, hi, t⟩ := r
    have hx : lo + t.length = hi + 1 := hex (lo, hi, t) (List.mem_cons_self ..)
    have hex' : exact rs := fun r hr => hex r (List.mem_cons_of_mem _ hr)
    have hd' := List.pairwise_cons.1 hd
    rw [List.flatMap_cons, Tree.lookup_append, lookup_sparseRows]
    unfold readRanges
    by_cases hc : c ≥ lo ∧ c ≤ hi
    · rw [if_pos hc, if_pos hc.1, List.getElem?_eq_getElem (by omega)]
      refine ⟨some t[c - lo], rfl, ?_⟩
      rw [lookup_flat_none val rs hex' c (fun r hr => by have := hd'.1 r hr; simp only at this; omega)]
      simp
    · rw [if_neg hc]
      obtain ⟨r, h1, h2⟩ := ih hex' hd'.2
      refine ⟨r, h1, ?_⟩
      rw [h2]
      by_cases hlo : lo ≤ c
      · simp only [hlo, if_true]
        rw [List.getElem?_eq_none (by omega)]
        rfl
      · simp only [hlo, if_false]
        rfl

theorem exact_fold : exact foldRanges := by unfold exact; decide +kernel
theorem exact_nfd : exact nfdRanges := by unfold exact; decide +kernel
theorem disjoint_fold : disjoint foldRanges := by unfold disjoint; decide +kernel
theorem disjoint_nfd : disjoint nfdRanges := by unfold disjoint; decide +kernel

def foldValue (c f : Nat) : Option Nat := match Nat.beq f c with | true => none | false => some f

/-- case foldings other than the character itself -/
def foldSparse : List (Nat × Nat) := foldRanges.flatMap (fun r => sparseRows foldValue r.1 r.2.2)

theorem fold_eq (c : Nat) : fold c = ok ((foldSparse.lookup c).getD c) := by
  obtain ⟨r, h1, h2⟩ := readRanges_lookup foldValue foldRanges exact_fold disjoint_fold c
  unfold fold foldSparse
  rw [h1, h2]
  cases r with
  | none => rfl
  | some f =>
    simp only [Option.bind, foldValue]
    cases hb : Nat.beq f c with
    | false => rfl
    | true => rw [Nat.eq_of_beq_eq_true hb]; rfl

theorem foldTree_sorted : foldTree.sorted 0 0x110000 = true := by decide +kernel
theorem foldTree_list : foldTree.toList = foldSparse := by decide +kernel

theorem fold_tree (c : Nat) : fold c = ok ((foldTree.find c).getD c) := by
  rw [Tree.find_eq _ 0 0x110000 c foldTree_sorted, foldTree_list, fold_eq]

/-- the characters of a row -/
def rowList (r : Row) : List Nat := (List.range r.1).map (fun i => r.2.getD i 0)

def nfdValue (c : Nat) (r : Row) : Option (List Nat) := if rowList r = [c] then none else some (rowList r)

def nfdSparse : List (Nat × List Nat) := nfdRanges.flatMap (fun r => sparseRows nfdValue r.1 r.2.2)

theorem decompose_eq (c : Nat) : decompose c = ok ((nfdSparse.lookup c).getD [c]) := by
  obtain ⟨r, h1, h2⟩ := readRanges_lookup nfdValue nfdRanges exact_nfd disjoint_nfd c
  unfold decompose nfdSparse
  rw [h1, h2]
  cases r with
  | none => rfl
  | some m =>
    obtain ⟨r, hm, hx⟩ := readRanges_mem _ _ _ h1
    have hg := good_nfd r hm m hx
    simp only [ok_bind, rowCharacters, Option.bind, nfdValue]
    rw [if_pos hg.2]
    split
    · rename_i he; rw [Option.getD, ← he]; rfl
    · rfl

/-! ## Unicode tables -/

/-- all entries of a page have code points of the page, and pages occur once -/
def paged {β : Type} (pages : List (Nat × List (Nat × β))) : Prop :=
  (∀ p ∈ pages, ∀ e ∈ p.2, e.1 / 256 = p.1) ∧ pages.Pairwise (fun a b => a.1 ≠ b.1)

theorem lookup_none {β : Type} (l : List (Nat × β)) (c : Nat) (h : ∀ e ∈ l, e.1 ≠ c) : l.lookup c = none := by
  induction l with
  | nil => rfl
  | cons p ps ih =>
    have : (c == p.1) = false := by simpa using fun e => h p (List.mem_cons_self ..) e.symm
    obtain ⟨k, v⟩ := p
    simp only [List.lookup]
    rw [this]
    exact ih (fun e he => h e (List.mem_cons_of_mem _ he))

theorem find_flat {β : Type} (pages : List (Nat × List (Nat × β))) (h : paged pages) (c : Nat) :
    Spec.Unicode.find pages c = (pages.flatMap (·.2)).lookup c := by
  unfold Spec.Unicode.find
  induction pages with
  | nil => rfl
  | cons p ps ih =>
    obtain ⟨k, es⟩ := p
    have hps : paged ps := ⟨fun p hp => h.1 p (List.mem_cons_of_mem _ hp), (List.pairwise_cons.1 h.2).2⟩
    rw [List.flatMap_cons, Tree.lookup_append]
    simp only [List.lookup]
    by_cases he : c / 256 = k
    · have hb : (c / 256 == k) = true := by simp [he]
      rw [hb, lookup_none (ps.flatMap (·.2)) c]
      · simp
      · intro e hm hc
        obtain ⟨p, hp, hep⟩ := List.mem_flatMap.1 hm
        have h1 := hps.1 p hp e hep
        have h2 := (List.pairwise_cons.1 h.2).1 p hp
        rw [hc] at h1
        simp only at h2
        omega
    · have hb : (c / 256 == k) = false := by simp [he]
      rw [hb, lookup_none es c]
      · exact ih hps
      · intro e hm hc
        have h1 : e.1 / 256 = k := h.1 (k, es) (List.mem_cons_self ..) e hm
        rw [hc] at h1
        exact he h1

theorem paged_dec : paged Spec.Unicode.decompositionPages := by unfold paged; decide +kernel
theorem paged_cf : paged Spec.Unicode.caseFoldingPages := by unfold paged; decide +kernel

theorem decTree_sorted : decTree.sorted 0 0x110000 = true := by decide +kernel
theorem decTree_list : decTree.toList = Spec.Unicode.decompositionPages.flatMap (·.2) := by decide +kernel
theorem cfTree_sorted : cfTree.sorted 0 0x110000 = true := by decide +kernel
theorem cfTree_list : cfTree.toList = Spec.Unicode.caseFoldingPages.flatMap (·.2) := by decide +kernel

theorem find_dec (c : Nat) : Spec.Unicode.find Spec.Unicode.decompositionPages c = decTree.find c := by
  rw [find_flat _ paged_dec, Tree.find_eq _ 0 0x110000 c decTree_sorted, decTree_list]

theorem find_cf (c : Nat) : Spec.Unicode.find Spec.Unicode.caseFoldingPages c = cfTree.find c := by
  rw [find_flat _ paged_cf, Tree.find_eq _ 0 0x110000 c cfTree_sorted, cfTree_list]

/-! ## Agreement -/

theorem nfd_filter : nfdSparse.filter (fun e => !excluded e.1) =
    (Spec.Unicode.decompositionPages.flatMap (·.2)).filter (fun e => !excluded e.1) := by decide +kernel

theorem lookup_filter {β : Type} (p : Nat → Bool) (l : List (Nat × β)) (c : Nat) (h : p c = true) :
    (l.filter (fun e => p e.1)).lookup c = l.lookup c := by
  induction l with
  | nil => rfl
  | cons e es ih =>
    obtain ⟨k, v⟩ := e
    simp only [List.filter_cons]
    by_cases hk : p k = true
    · rw [if_pos hk]
      simp only [List.lookup]
      rw [ih]
    · rw [if_neg hk, ih]
      simp only [List.lookup]
      have : (c == k) = false := by
        simp only [beq_eq_false_iff_ne, ne_eq]
        intro e; subst e; exact hk h
      rw [this]

theorem decomposition_tree (c : Nat) (h : Spec.Unicode.isHangul c = false) : Spec.Unicode.decomposition c = (decTree.find c).getD [c] := by
  unfold Spec.Unicode.decomposition
  rw [h, find_dec]
  rfl

theorem decompose_agrees (c : Nat) (h : excluded c = false) : decompose c = ok (Spec.Unicode.decomposition c) := by
  have hh : Spec.Unicode.isHangul c = false := by
    unfold excluded at h
    simp only [Bool.or_eq_false_iff] at h
    exact h.1
  have hp : (fun c => !excluded c) c = true := by simp [h]
  rw [decompose_eq, ← lookup_filter (fun c => !excluded c) nfdSparse c hp, nfd_filter, lookup_filter (fun c => !excluded c) _ c hp,
    decomposition_tree c hh, Tree.find_eq _ 0 0x110000 c decTree_sorted, decTree_list]

def decT (c : Nat) : List Nat := (decTree.find c).getD [c]
def cfT (c : Nat) : List Nat := (cfTree.find c).getD [c]
def foldT (c : Nat) : Nat := (foldTree.find c).getD c

def listEq : List Nat → List Nat → Bool
  | [], [] => true
  | a :: as, b :: bs => Nat.beq a b && listEq as bs
  | _, _ => false

theorem listEq_eq (a b : List Nat) (h : listEq a b = true) : a = b := by
  induction a generalizing b with
  | nil => cases b with
    | nil => rfl
    | cons => cases h
  | cons x xs ih => cases b with
    | nil => cases h
    | cons y ys =>
      simp only [listEq, Bool.and_eq_true] at h
      rw [Nat.eq_of_beq_eq_true h.1, ih ys h.2]

def hashT (f : Nat) : List Nat :=
  match Nat.ble 0x1f80 f && Nat.ble f 0x1faf with
  | true => rowList (special1f80.getD (f - 0x1f80) (0, []))
  | false =>
    match specialCases.lookup f with
    | some m => rowList m
    | none => decT f

def checked (c : Nat) : Bool :=
  excluded c || (!excluded (foldT c) && (decT c).all (fun d => !Spec.Unicode.isHangul d) &&
    ((decT c).flatMap cfT).all (fun d => !Spec.Unicode.isHangul d) && listEq (hashT (foldT c)) (((decT c).flatMap cfT).flatMap decT))

/-- single character case foldings are what is compared, and the case folding only depends on what is compared -/
def checkedCompare (c : Nat) : Bool :=
  excluded c || ((!Nat.beq (cfT c).length 1 || listEq (decT (foldT c)) (hashT (foldT c))) &&
    (decT (foldT c)).all (fun d => !Spec.Unicode.isHangul d) && ((decT (foldT c)).flatMap cfT).all (fun d => !Spec.Unicode.isHangul d) &&
    listEq (((decT (foldT c)).flatMap cfT).flatMap decT) (hashT (foldT c)))


theorem keys_fold : foldTree.toList.all (fun e => newer e.1 || (cfTree.find e.1).isSome) = true := by decide +kernel
theorem keys_1f80 : (List.range' 0x1f80 48).all (fun c => (cfTree.find c).isSome) = true := by decide +kernel
theorem keys_special : specialCases.all (fun e => (cfTree.find e.1).isSome) = true := by decide +kernel

end Name
end Verif
