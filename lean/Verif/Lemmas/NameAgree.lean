import Verif.Lemmas.NameCheckDec
import Verif.Lemmas.NameCheckFold
/-!
# Lemmas: what is hashed and compared agrees with Unicode
-/
namespace Verif
open Res
namespace Name
open Spec (newer excluded)

theorem rowCharacters_list (m : Row) (h : goodRow m) : rowCharacters m = ok (rowList m) := by
  unfold rowCharacters rowList
  rw [if_pos h.2]

theorem foldT_eq (c : Nat) : fold c = ok (foldT c) := fold_tree c

theorem not_excluded (c : Nat) (h : excluded c = false) : Spec.Unicode.isHangul c = false := by
  unfold excluded at h
  simp only [Bool.or_eq_false_iff] at h
  exact h.1

theorem decT_eq (c : Nat) (h : Spec.Unicode.isHangul c = false) : Spec.Unicode.decomposition c = decT c := decomposition_tree c h

theorem cfT_eq (c : Nat) : Spec.Unicode.caseFolding c = cfT c := by
  unfold Spec.Unicode.caseFolding cfT
  rw [find_cf]

theorem hashCharacters_tree (c : Nat) (h : excluded (foldT c) = false) : hashCharacters true c = ok (hashT (foldT c)) := by
  unfold hashCharacters
  rw [if_pos rfl, foldT_eq, ok_bind]
  generalize foldT c = f at h
  unfold hashT
  by_cases hr : f ≥ 0x1f80 ∧ f ≤ 0x1faf
  · rw [if_pos hr, Nat.ble_eq_true_of_le hr.1, Nat.ble_eq_true_of_le hr.2]
    obtain ⟨m, hm, hg⟩ := special1f80_ok f hr
    have hd : special1f80.getD (f - 0x1f80) (0, []) = m := by
      rw [List.getD_eq_getElem?_getD, hm]; rfl
    rw [hm, hd]
    exact rowCharacters_list m hg
  · rw [if_neg hr]
    have hb : (Nat.ble 0x1f80 f && Nat.ble f 0x1faf) = false := by
      cases hb : (Nat.ble 0x1f80 f && Nat.ble f 0x1faf) with
      | false => rfl
      | true =>
        simp only [Bool.and_eq_true] at hb
        exact absurd ⟨Nat.le_of_ble_eq_true hb.1, Nat.le_of_ble_eq_true hb.2⟩ hr
    rw [hb]
    cases hs : specialCases.lookup f with
    | some m => exact rowCharacters_list m (good_special _ (lookup_mem _ _ _ hs))
    | none =>
      show decompose f = ok (decT f)
      rw [decompose_agrees f h, decT_eq f (not_excluded f h)]

theorem flatMap_congr' {α β : Type} (l : List α) (f g : α → List β) (h : ∀ a ∈ l, f a = g a) : l.flatMap f = l.flatMap g := by
  induction l with
  | nil => rfl
  | cons a as ih =>
    rw [List.flatMap_cons, List.flatMap_cons, h a (List.mem_cons_self ..), ih (fun a ha => h a (List.mem_cons_of_mem _ ha))]

theorem hash_checked (c : Nat) (he : excluded c = false) (h : checked c = true) : hashCharacters true c = ok (Spec.caselessChar c) := by
  unfold checked at h
  rw [he] at h
  simp only [Bool.false_or, Bool.and_eq_true, Bool.not_eq_true', List.all_eq_true] at h
  obtain ⟨⟨⟨hf, _⟩, hd2⟩, heq⟩ := h
  rw [hashCharacters_tree c hf, listEq_eq _ _ heq]
  unfold Spec.caselessChar
  rw [decT_eq c (not_excluded c he), flatMap_congr' (decT c) Spec.Unicode.caseFolding cfT (fun d _ => cfT_eq d),
    flatMap_congr' _ Spec.Unicode.decomposition decT (fun d hd => decT_eq d (hd2 d hd))]

theorem tree_mem {β : Type} (t : Tree β) (c : Nat) (v : β) (hs : t.sorted 0 0x110000 = true) (h : t.find c = some v) : (c, v) ∈ t.toList := by
  rw [Tree.find_eq t 0 0x110000 c hs] at h
  exact lookup_mem _ _ _ h

/-- What is hashed of a code point is its canonical caseless form. -/
theorem hash_agrees (c : Nat) (h : excluded c = false) : hashCharacters true c = ok (Spec.caselessChar c) := by
  cases hd : decTree.find c with
  | some v =>
    have hm := tree_mem _ c v decTree_sorted hd
    rw [decTree_list] at hm
    obtain ⟨p, hp, he⟩ := List.mem_flatMap.1 hm
    exact hash_checked c h (List.all_eq_true.1 (checked_dec p hp) _ he)
  | none =>
    cases hc : cfTree.find c with
    | some v =>
      have hm := tree_mem _ c v cfTree_sorted hc
      rw [cfTree_list] at hm
      obtain ⟨p, hp, he⟩ := List.mem_flatMap.1 hm
      exact hash_checked c h (List.all_eq_true.1 (checked_cf p hp) _ he)
    | none =>
      have hn : newer c = false := by
        unfold excluded at h
        simp only [Bool.or_eq_false_iff] at h
        exact h.2
      have hf : foldT c = c := by
        unfold foldT
        cases hf : foldTree.find c with
        | none => rfl
        | some f =>
          have := List.all_eq_true.1 keys_fold _ (tree_mem _ c f foldTree_sorted hf)
          simp only [hn, hc] at this
          cases this
      have hr : ¬ (0x1f80 ≤ c ∧ c ≤ 0x1faf) := by
        intro hr
        have := List.all_eq_true.1 keys_1f80 c (by rw [List.mem_range']; exact ⟨c - 0x1f80, by omega, by omega⟩)
        rw [hc] at this
        cases this
      have hs : specialCases.lookup c = none := by
        cases hs : specialCases.lookup c with
        | none => rfl
        | some m =>
          have := List.all_eq_true.1 keys_special _ (lookup_mem _ _ _ hs)
          rw [hc] at this
          cases this
      have hb : (Nat.ble 0x1f80 c && Nat.ble c 0x1faf) = false := by
        cases hb : (Nat.ble 0x1f80 c && Nat.ble c 0x1faf) with
        | false => rfl
        | true =>
          simp only [Bool.and_eq_true] at hb
          exact absurd ⟨Nat.le_of_ble_eq_true hb.1, Nat.le_of_ble_eq_true hb.2⟩ hr
      have hdec : Spec.Unicode.decomposition c = [c] := by
        rw [decT_eq c (not_excluded c h)]
        unfold decT
        rw [hd]
        rfl
      have hcf : Spec.Unicode.caseFolding c = [c] := by
        rw [cfT_eq]
        unfold cfT
        rw [hc]
        rfl
      rw [hashCharacters_tree c (by rw [hf]; exact h), hf]
      unfold hashT Spec.caselessChar decT
      rw [hb, hs, hd, hdec]
      simp only [List.flatMap_cons, List.flatMap_nil, List.append_nil, hcf, hdec, Option.getD]

theorem tree_none (c : Nat) (hn : newer c = false) (hc : cfTree.find c = none) : foldT c = c ∧ hashT c = decT c := by
  have hf : foldT c = c := by
    unfold foldT
    cases hf : foldTree.find c with
    | none => rfl
    | some f =>
      have := List.all_eq_true.1 keys_fold _ (tree_mem _ c f foldTree_sorted hf)
      simp only [hn, hc] at this
      cases this
  have hr : ¬ (0x1f80 ≤ c ∧ c ≤ 0x1faf) := by
    intro hr
    have := List.all_eq_true.1 keys_1f80 c (by rw [List.mem_range']; exact ⟨c - 0x1f80, by omega, by omega⟩)
    rw [hc] at this
    cases this
  have hs : specialCases.lookup c = none := by
    cases hs : specialCases.lookup c with
    | none => rfl
    | some m =>
      have := List.all_eq_true.1 keys_special _ (lookup_mem _ _ _ hs)
      rw [hc] at this
      cases this
  have hb : (Nat.ble 0x1f80 c && Nat.ble c 0x1faf) = false := by
    cases hb : (Nat.ble 0x1f80 c && Nat.ble c 0x1faf) with
    | false => rfl
    | true =>
      simp only [Bool.and_eq_true] at hb
      exact absurd ⟨Nat.le_of_ble_eq_true hb.1, Nat.le_of_ble_eq_true hb.2⟩ hr
  refine ⟨hf, ?_⟩
  unfold hashT
  rw [hb, hs]

theorem foldT_excluded (c : Nat) (h : excluded c = false) : excluded (foldT c) = false := by
  have hn : newer c = false := by
    unfold excluded at h
    simp only [Bool.or_eq_false_iff] at h
    exact h.2
  cases hc : cfTree.find c with
  | some v =>
    have hm := tree_mem _ c v cfTree_sorted hc
    rw [cfTree_list] at hm
    obtain ⟨p, hp, he⟩ := List.mem_flatMap.1 hm
    have := List.all_eq_true.1 (checked_cf p hp) _ he
    unfold checked at this
    simp only [h, Bool.false_or, Bool.and_eq_true, Bool.not_eq_true'] at this
    exact this.1.1.1
  | none => rw [(tree_none c hn hc).1]; exact h

theorem compareMapping_tree (c : Nat) (h : excluded c = false) : compareMapping true c = ok (decT (foldT c)) := by
  have hf := foldT_excluded c h
  unfold compareMapping
  rw [if_pos rfl, foldT_eq, ok_bind, decompose_agrees _ hf, decT_eq _ (not_excluded _ hf)]

theorem checkedCompare_all (c : Nat) (h : excluded c = false) : checkedCompare c = true := by
  have hn : newer c = false := by
    unfold excluded at h
    simp only [Bool.or_eq_false_iff] at h
    exact h.2
  cases hd : decTree.find c with
  | some v =>
    have hm := tree_mem _ c v decTree_sorted hd
    rw [decTree_list] at hm
    obtain ⟨p, hp, he⟩ := List.mem_flatMap.1 hm
    exact List.all_eq_true.1 (checkedCompare_dec p hp) _ he
  | none =>
    cases hc : cfTree.find c with
    | some v =>
      have hm := tree_mem _ c v cfTree_sorted hc
      rw [cfTree_list] at hm
      obtain ⟨p, hp, he⟩ := List.mem_flatMap.1 hm
      exact List.all_eq_true.1 (checkedCompare_cf p hp) _ he
    | none =>
      obtain ⟨h1, h2⟩ := tree_none c hn hc
      have h3 : decT c = [c] := by unfold decT; rw [hd]; rfl
      have h4 : cfT c = [c] := by unfold cfT; rw [hc]; rfl
      unfold checkedCompare
      rw [h1, h2, h3]
      simp [h4, h3, listEq, not_excluded c h]

theorem caseless_hashT (c : Nat) (h : excluded c = false) : Spec.caselessChar c = hashT (foldT c) := by
  have h1 := hash_agrees c h
  rw [hashCharacters_tree c (foldT_excluded c h)] at h1
  exact (Res.ok.inj h1).symm

/-- If the case folding is a single character then what is compared is the canonical caseless form. -/
theorem compare_agrees (c : Nat) (h : excluded c = false) (hl : (Spec.Unicode.caseFolding c).length = 1) :
    compareMapping true c = ok (Spec.caselessChar c) := by
  have hk := checkedCompare_all c h
  unfold checkedCompare at hk
  rw [cfT_eq] at hl
  simp only [h, hl, Bool.false_or, Bool.and_eq_true] at hk
  have hk1 : listEq (decT (foldT c)) (hashT (foldT c)) = true := by simpa using hk.1.1.1
  rw [compareMapping_tree c h, caseless_hashT c h, listEq_eq _ _ hk1]

/-- The canonical caseless form of a character only depends on what is compared. -/
theorem compare_caseless (c : Nat) (h : excluded c = false) :
    ∃ m, compareMapping true c = ok m ∧ Spec.caselessChar c = (m.flatMap Spec.Unicode.caseFolding).flatMap Spec.Unicode.decomposition := by
  have hk := checkedCompare_all c h
  unfold checkedCompare at hk
  simp only [h, Bool.false_or, Bool.and_eq_true, List.all_eq_true, Bool.not_eq_true'] at hk
  refine ⟨_, compareMapping_tree c h, ?_⟩
  rw [caseless_hashT c h, ← listEq_eq _ _ hk.2, flatMap_congr' _ Spec.Unicode.caseFolding cfT (fun d _ => cfT_eq d),
    flatMap_congr' _ Spec.Unicode.decomposition decT (fun d hd => decT_eq d (hk.1.2 d hd))]

theorem fold_idempotent (c f : Nat) (h : fold c = ok f) : fold f = ok f := by
  rw [foldT_eq] at h
  cases h
  rw [foldT_eq]
  congr 1
  unfold foldT
  cases hf : foldTree.find c with
  | none => simp only [Option.getD]; rw [hf]
  | some f =>
    have := List.all_eq_true.1 fold_values _ (tree_mem _ c f foldTree_sorted hf)
    simp only [Option.isNone_iff_eq_none] at this
    simp only [Option.getD]
    rw [this]

theorem decompose_full (c : Nat) (m : List Nat) (h : decompose c = ok m) : ∀ d ∈ m, decompose d = ok [d] := by
  rw [decompose_eq] at h
  cases hs : nfdSparse.lookup c with
  | none =>
    rw [hs] at h
    cases h
    intro d hd
    cases List.mem_singleton.1 hd
    rw [decompose_eq, hs]
    rfl
  | some v =>
    rw [hs] at h
    cases h
    intro d hd
    have := List.all_eq_true.1 (List.all_eq_true.1 nfd_values _ (lookup_mem _ _ _ hs)) d hd
    simp only [Bool.and_eq_true, Bool.not_eq_true', Option.isNone_iff_eq_none] at this
    rw [decompose_agrees d this.1, decT_eq d (not_excluded d this.1)]
    unfold decT
    rw [this.2]
    rfl

end Name
end Verif
