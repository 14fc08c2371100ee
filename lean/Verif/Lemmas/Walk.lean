import Verif.Lemmas.FsTree
import Verif.Lemmas.Records
/-! Lemmas: walks over arbitrary graphs of nodes -/
namespace Verif
open Res Spec
namespace FsTree
open BTree

/-- a walk of `k` nodes from branch node to child to a last node -/
inductive Walk (sub : Bytes → Res Node) : Nat → Node → Node → Prop
  | last (n : Node) : Walk sub 1 n n
  | step {n m l : Node} {k : Nat} {e : Entry} (h : n.leaf = false) (he : e ∈ n.entries) (hs : sub e.2 = ok m) (hw : Walk sub k m l) : Walk sub (k + 1) n l

/-- two graphs are the same up to `k` nodes from `n` -/
def SameNear (sub sub' : Bytes → Res Node) : Nat → Node → Prop
  | 0, _ => True
  | k + 1, n => ∀ e ∈ n.entries, sub e.2 = sub' e.2 ∧ ∀ m, sub e.2 = ok m → SameNear sub sub' k m

theorem fsEntryFromNode_mem {leaf : Bool} {i t : Nat} {es : List Entry} {p : Option Entry} {e : Entry} (h : fsEntryFromNode leaf i t es p = ok (some (some e))) :
    e ∈ es ∨ p = some e := by
  induction es generalizing p with
  | nil =>
    unfold fsEntryFromNode at h
    split at h
    · cases h
    · cases h; exact .inr rfl
  | cons x xs ih =>
    unfold fsEntryFromNode at h
    obtain ⟨_, _, h⟩ := bind_eq_ok.1 h
    obtain ⟨key, _, h⟩ := bind_eq_ok.1 h
    split at h
    · split at h
      · cases h; simp
      · rcases ih h with h | h
        · simp [h]
        · exact .inr h
    · split at h
      · split at h
        · cases h; simp
        · cases h; exact .inr rfl
      · rcases ih h with h | h
        · simp [h]
        · cases h; simp

theorem fsEntryFromNode_none {i t : Nat} {es : List Entry} {p : Option Entry} (h : fsEntryFromNode false i t es p = ok none) : False := by
  induction es generalizing p with
  | nil => unfold fsEntryFromNode at h; simp at h
  | cons x xs ih =>
    unfold fsEntryFromNode at h
    obtain ⟨_, _, h⟩ := bind_eq_ok.1 h
    obtain ⟨key, _, h⟩ := bind_eq_ok.1 h
    simp only [Bool.false_eq_true, if_false] at h
    split at h
    · split at h <;> cases h
    · exact ih h

theorem fsEntryLoop_walk {sub : Bytes → Res Node} {i t fuel : Nat} {n : Node} {r : Option Entry} (h : fsEntryLoop sub i t fuel n = ok r) :
    ∃ k l, k ≤ fuel ∧ Walk sub k n l ∧ l.leaf = true ∧ ∀ e ∈ r, e ∈ l.entries := by
  induction fuel generalizing n with
  | zero => cases h
  | succ fuel ih =>
    unfold fsEntryLoop at h
    obtain ⟨q, hq, h⟩ := bind_eq_ok.1 h
    cases hl : n.leaf with
    | true =>
      refine ⟨1, n, by omega, .last n, hl, ?_⟩
      cases q with
      | none => cases h; intro e he; cases he
      | some q =>
        cases q with
        | none => cases h
        | some x =>
          simp only [hl, if_true] at h
          cases h
          intro e he
          cases he
          rcases fsEntryFromNode_mem hq with h | h
          · exact h
          · cases h
    | false =>
      rw [hl] at hq
      cases q with
      | none => exact (fsEntryFromNode_none hq).elim
      | some q =>
        cases q with
        | none => cases h
        | some x =>
          simp only [hl, Bool.false_eq_true, if_false] at h
          obtain ⟨m, hm, h⟩ := bind_eq_ok.1 h
          obtain ⟨k, l, hk, hw, hleaf, hmem⟩ := ih h
          refine ⟨k + 1, l, by omega, .step hl ?_ hm hw, hleaf, hmem⟩
          rcases fsEntryFromNode_mem hq with h | h
          · exact h
          · cases h

theorem fsEntryLoop_same {sub sub' : Bytes → Res Node} {i t fuel : Nat} {n : Node} (h : SameNear sub sub' fuel n) : fsEntryLoop sub i t fuel n = fsEntryLoop sub' i t fuel n := by
  induction fuel generalizing n with
  | zero => rfl
  | succ fuel ih =>
    unfold fsEntryLoop
    cases hq : fsEntryFromNode n.leaf i t n.entries none with
    | err => rfl
    | ub => rfl
    | ok q =>
      rw [ok_bind, ok_bind]
      cases q with
      | none => rfl
      | some q =>
        cases q with
        | none => rfl
        | some x =>
          simp only
          split
          · rfl
          · have hx : x ∈ n.entries := by
              rcases fsEntryFromNode_mem hq with h | h
              · exact h
              · cases h
            obtain ⟨h1, h2⟩ := h x hx
            rw [← h1]
            cases hs : sub x.2 with
            | err => rfl
            | ub => rfl
            | ok m =>
              rw [ok_bind, ok_bind]
              exact ih (h2 m hs)

theorem safe_fsEntryFromNode (leaf : Bool) (i t : Nat) (es : List Entry) (p : Option Entry) : Safe (fsEntryFromNode leaf i t es p) := by
  induction es generalizing p with
  | nil => unfold fsEntryFromNode; split <;> exact safe_ok _
  | cons x xs ih =>
    unfold fsEntryFromNode
    refine safe_bind safe_require fun _ h1 => ?_
    have := (require_eq_ok _).1 h1
    refine safe_bind (safe_rdLE (by omega)) fun _ _ => ?_
    split
    · split
      · exact safe_ok _
      · exact ih _
    · split
      · split <;> exact safe_ok _
      · exact ih _

theorem safe_fsEntryLoop {sub : Bytes → Res Node} (hs : ∀ v, Safe (sub v)) (i t fuel : Nat) (n : Node) : Safe (fsEntryLoop sub i t fuel n) := by
  induction fuel generalizing n with
  | zero => exact safe_err
  | succ fuel ih =>
    unfold fsEntryLoop
    refine safe_bind (safe_fsEntryFromNode _ _ _ _ _) fun q _ => ?_
    split
    · exact safe_ok _
    · exact safe_err
    · split
      · exact safe_ok _
      · exact safe_bind (hs _) fun _ _ => ih _

/-! enumerations -/

theorem enumLeaf_mem {α : Type} {k : Kind α} {i : Nat} {es : List Entry} {xs : List α} (h : enumLeaf k i es = ok xs) : ∀ x ∈ xs, ∃ e ∈ es, k.decode e = ok x := by
  induction es generalizing xs with
  | nil => cases h; intro x hx; cases hx
  | cons e es ih =>
    unfold enumLeaf at h
    obtain ⟨_, _, h⟩ := bind_eq_ok.1 h
    obtain ⟨key, _, h⟩ := bind_eq_ok.1 h
    split at h
    · cases h; intro x hx; cases hx
    · split at h
      · intro x hx
        obtain ⟨e', h1, h2⟩ := ih h x hx
        exact ⟨e', by simp [h1], h2⟩
      · obtain ⟨y, hy, h⟩ := bind_eq_ok.1 h
        obtain ⟨ys, hys, h⟩ := bind_eq_ok.1 h
        cases h
        intro x hx
        rcases List.mem_cons.1 hx with rfl | hx
        · exact ⟨e, by simp, hy⟩
        · obtain ⟨e', h1, h2⟩ := ih hys x hx
          exact ⟨e', by simp [h1], h2⟩

/-- a branch that is enumerated visits at least one child, and all elements come from visits -/
theorem enumBranch_mem {α : Type} {k : Kind α} {visit : Bytes → Res (List α)} {i : Nat} {es : List Entry} {p : Option Entry} {xs : List α}
    (h : enumBranch k visit i es p = ok xs) :
    (∃ e, (e ∈ es ∨ p = some e) ∧ ∃ ys, visit e.2 = ok ys) ∧ ∀ x ∈ xs, ∃ e, (e ∈ es ∨ p = some e) ∧ ∃ ys, visit e.2 = ok ys ∧ x ∈ ys := by
  induction es generalizing p xs with
  | nil =>
    cases p with
    | none => cases h
    | some p =>
      unfold enumBranch at h
      exact ⟨⟨p, .inr rfl, xs, h⟩, fun x hx => ⟨p, .inr rfl, xs, h, hx⟩⟩
  | cons e es ih =>
    unfold enumBranch at h
    obtain ⟨_, _, h⟩ := bind_eq_ok.1 h
    obtain ⟨key, _, h⟩ := bind_eq_ok.1 h
    split at h
    · cases p with
      | none => cases h
      | some p => exact ⟨⟨p, .inr rfl, xs, h⟩, fun x hx => ⟨p, .inr rfl, xs, h, hx⟩⟩
    · obtain ⟨low, _, h⟩ := bind_eq_ok.1 h
      obtain ⟨as, has, h⟩ := bind_eq_ok.1 h
      obtain ⟨bs, hbs, h⟩ := bind_eq_ok.1 h
      cases h
      obtain ⟨i1, i2⟩ := ih hbs
      have conv : ∀ q : Entry, (q ∈ es ∨ some e = some q) → (q ∈ e :: es ∨ p = some q) := by
        intro q hq
        rcases hq with hq | hq
        · simp [hq]
        · cases hq; simp
      refine ⟨?_, ?_⟩
      · obtain ⟨q, hq, hv⟩ := i1
        exact ⟨q, conv q hq, hv⟩
      · intro x hx
        rcases List.mem_append.1 hx with hx | hx
        · cases low with
          | false => cases has; cases hx
          | true =>
            cases p with
            | none => cases has; cases hx
            | some p => exact ⟨p, .inr rfl, as, has, hx⟩
        · obtain ⟨q, hq, hv⟩ := i2 x hx
          exact ⟨q, conv q hq, hv⟩

theorem enumNode_walk {α : Type} {kd : Kind α} {sub : Bytes → Res Node} {i fuel : Nat} {n : Node} {xs : List α} (h : enumNode kd sub i fuel n = ok xs) :
    (∃ k l, k ≤ fuel + 1 ∧ Walk sub k n l ∧ l.leaf = true) ∧
    ∀ x ∈ xs, ∃ k l, k ≤ fuel + 1 ∧ Walk sub k n l ∧ l.leaf = true ∧ ∃ e ∈ l.entries, kd.decode e = ok x := by
  have hleaf : ∀ fuel, n.leaf = true → enumLeaf kd i n.entries = ok xs → (∃ k l, k ≤ fuel + 1 ∧ Walk sub k n l ∧ l.leaf = true) ∧
      ∀ x ∈ xs, ∃ k l, k ≤ fuel + 1 ∧ Walk sub k n l ∧ l.leaf = true ∧ ∃ e ∈ l.entries, kd.decode e = ok x := fun fuel hl h =>
    ⟨⟨1, n, by omega, .last n, hl⟩, fun x hx => ⟨1, n, by omega, .last n, hl, enumLeaf_mem h x hx⟩⟩
  induction fuel generalizing n xs with
  | zero =>
    unfold enumNode at h
    split at h
    · rename_i hl; exact hleaf 0 hl h
    · cases h
  | succ fuel ih =>
    unfold enumNode at h
    split at h
    · rename_i hl; exact hleaf (fuel + 1) hl h
    · rename_i hl
      have hl : n.leaf = false := by simpa using hl
      have ih : ∀ {m : Node} {xs : List α}, enumNode kd sub i fuel m = ok xs → _ := fun {m xs} h => ih h
        (fun fuel hl h => ⟨⟨1, m, by omega, .last m, hl⟩, fun x hx => ⟨1, m, by omega, .last m, hl, enumLeaf_mem h x hx⟩⟩)
      obtain ⟨⟨e, he, ys, hv⟩, h2⟩ := enumBranch_mem h
      have hin : ∀ q : Entry, (q ∈ n.entries ∨ none = some q) → q ∈ n.entries := by
        intro q hq
        rcases hq with hq | hq
        · exact hq
        · cases hq
      refine ⟨?_, ?_⟩
      · obtain ⟨m, hm, hv⟩ := bind_eq_ok.1 hv
        obtain ⟨⟨k, l, hk, hw, hlf⟩, _⟩ := ih hv
        exact ⟨k + 1, l, by omega, .step hl (hin e he) hm hw, hlf⟩
      · intro x hx
        obtain ⟨q, hq, ys, hv, hy⟩ := h2 x hx
        obtain ⟨m, hm, hv⟩ := bind_eq_ok.1 hv
        obtain ⟨_, h3⟩ := ih hv
        obtain ⟨k, l, hk, hw, hlf, hd⟩ := h3 x hy
        exact ⟨k + 1, l, by omega, .step hl (hin q hq) hm hw, hlf, hd⟩

theorem enumBranch_same {α : Type} {k : Kind α} {visit visit' : Bytes → Res (List α)} {i : Nat} {es : List Entry} {p : Option Entry}
    (h : ∀ e, (e ∈ es ∨ p = some e) → visit e.2 = visit' e.2) : enumBranch k visit i es p = enumBranch k visit' i es p := by
  induction es generalizing p with
  | nil =>
    cases p with
    | none => rfl
    | some p => exact h p (.inr rfl)
  | cons e es ih =>
    unfold enumBranch
    have hv : ∀ q, p = some q → visit q.2 = visit' q.2 := fun q hq => h q (.inr hq)
    rw [ih (p := some e) (by
      intro q hq
      rcases hq with hq | hq
      · exact h q (by simp [hq])
      · cases hq; exact h _ (by simp))]
    congr 1
    funext _
    congr 1
    funext key
    congr 1
    · cases p with
      | none => rfl
      | some p => exact hv p rfl
    · congr 1
      funext low
      congr 1
      clear ih h
      cases low with
      | false => rfl
      | true =>
        cases p with
        | none => rfl
        | some p => exact hv p rfl

theorem enumNode_same {α : Type} {kd : Kind α} {sub sub' : Bytes → Res Node} {i fuel : Nat} {n : Node} (h : SameNear sub sub' fuel n) :
    enumNode kd sub i fuel n = enumNode kd sub' i fuel n := by
  induction fuel generalizing n with
  | zero => rfl
  | succ fuel ih =>
    unfold enumNode
    split
    · rfl
    · refine enumBranch_same fun e he => ?_
      have he : e ∈ n.entries := by
        rcases he with he | he
        · exact he
        · cases he
      obtain ⟨h1, h2⟩ := h e he
      rw [← h1]
      cases hs : sub e.2 with
      | err => rfl
      | ub => rfl
      | ok m =>
        rw [ok_bind, ok_bind]
        exact ih (h2 m hs)

structure SafeKind {α : Type} (k : Kind α) : Prop where
  decode : ∀ e, Safe (k.decode e)
  before : ∀ d, Safe (k.before d)

theorem safe_enumLeaf {α : Type} {k : Kind α} (hk : SafeKind k) (i : Nat) (es : List Entry) : Safe (enumLeaf k i es) := by
  induction es with
  | nil => exact safe_ok _
  | cons e es ih =>
    unfold enumLeaf
    refine safe_bind safe_require fun _ h1 => ?_
    have := (require_eq_ok _).1 h1
    refine safe_bind (safe_rdLE (by omega)) fun _ _ => ?_
    split
    · exact safe_ok _
    · split
      · exact ih
      · exact safe_bind (hk.decode e) fun _ _ => safe_bind ih fun _ _ => safe_ok _

theorem safe_enumBranch {α : Type} {k : Kind α} (hk : SafeKind k) {visit : Bytes → Res (List α)} (hv : ∀ d, Safe (visit d)) (i : Nat) (es : List Entry) (p : Option Entry) :
    Safe (enumBranch k visit i es p) := by
  induction es generalizing p with
  | nil =>
    cases p with
    | none => exact safe_err
    | some p => exact hv _
  | cons e es ih =>
    unfold enumBranch
    refine safe_bind safe_require fun _ h1 => ?_
    have := (require_eq_ok _).1 h1
    refine safe_bind (safe_rdLE (by omega)) fun _ _ => ?_
    split
    · split
      · exact safe_err
      · exact hv _
    · refine safe_bind ?_ fun low _ => ?_
      · split
        · exact hk.before _
        · exact safe_ok _
      · refine safe_bind ?_ fun _ _ => safe_bind (ih _) fun _ _ => safe_ok _
        split
        · exact hv _
        · exact safe_ok _

theorem safe_enumNode {α : Type} {k : Kind α} (hk : SafeKind k) {sub : Bytes → Res Node} (hs : ∀ v, Safe (sub v)) (i fuel : Nat) (n : Node) : Safe (enumNode k sub i fuel n) := by
  induction fuel generalizing n with
  | zero =>
    unfold enumNode
    split
    · exact safe_enumLeaf hk _ _
    · exact safe_err
  | succ fuel ih =>
    unfold enumNode
    split
    · exact safe_enumLeaf hk _ _
    · exact safe_enumBranch hk (fun d => safe_bind (hs d) fun _ _ => ih _) _ _ _

/-! object map -/

theorem omScan_mem {oid xid : Nat} {es all : List Entry} {s s' : OmScan} (h : omScan oid xid es s = ok s') (hes : ∀ e ∈ es, e ∈ all)
    (hp : ∀ e ∈ s.previous, e ∈ all) (he : ∀ e ∈ s.entry, e ∈ all) : (∀ e ∈ s'.previous, e ∈ all) ∧ (∀ e ∈ s'.entry, e ∈ all) := by
  induction es generalizing s with
  | nil => cases h; exact ⟨hp, he⟩
  | cons x xs ih =>
    unfold omScan at h
    obtain ⟨_, _, h⟩ := bind_eq_ok.1 h
    obtain ⟨a, _, h⟩ := bind_eq_ok.1 h
    obtain ⟨b, _, h⟩ := bind_eq_ok.1 h
    have hx : ∀ e ∈ some x, e ∈ all := by
      intro e he
      cases he
      exact hes _ (by simp)
    simp only at h
    split at h
    · cases h; exact ⟨hp, hx⟩
    · split at h
      · cases h; exact ⟨hp, hx⟩
      · exact ih h (fun e he => hes e (by simp [he])) hx hx

theorem omEntryFromNode_mem {n : Node} {oid xid : Nat} {r : Option (Option Entry)} (h : omEntryFromNode n oid xid = ok r) :
    (n.leaf = false → r ≠ none) ∧ ∀ e, r = some (some e) → e ∈ n.entries := by
  unfold omEntryFromNode at h
  obtain ⟨s, hs, h⟩ := bind_eq_ok.1 h
  obtain ⟨h1, h2⟩ := omScan_mem hs (fun e he => he) (by intro e he; cases he) (by intro e he; cases he)
  split at h
  · rename_i hl
    refine ⟨fun hl' => (by rw [hl] at hl'; cases hl'), ?_⟩
    split at h
    · cases h
      intro e he
      exact h1 e (by simpa using he)
    · cases h; intro e he; cases he
  · split at h
    · cases h
      exact ⟨fun _ => by simp, fun e he => h2 e (by simpa using he)⟩
    · cases h
      exact ⟨fun _ => by simp, fun e he => h1 e (by simpa using he)⟩

theorem omLoop_walk {fetch : Nat → Res Bytes} {oid xid fuel : Nat} {n : Node} {r : Option (Option Entry)} (h : omLoop fetch oid xid fuel n = ok r) :
    ∃ k l, k ≤ fuel ∧ Walk (omSub fetch) k n l ∧ l.leaf = true ∧ ∀ e, r = some (some e) → e ∈ l.entries := by
  induction fuel generalizing n with
  | zero => cases h
  | succ fuel ih =>
    unfold omLoop at h
    obtain ⟨q, hq, h⟩ := bind_eq_ok.1 h
    obtain ⟨m1, m2⟩ := omEntryFromNode_mem hq
    cases hl : n.leaf with
    | true =>
      refine ⟨1, n, by omega, .last n, hl, ?_⟩
      cases q with
      | none => cases h; intro e he; cases he
      | some q =>
        simp only [hl, if_true] at h
        cases h
        exact m2
    | false =>
      cases q with
      | none => exact absurd rfl (m1 hl)
      | some q =>
        simp only [hl, Bool.false_eq_true, if_false] at h
        cases q with
        | none => cases h
        | some x =>
          simp only at h
          obtain ⟨m, hm, h⟩ := bind_eq_ok.1 h
          obtain ⟨k, l, hk, hw, hleaf, hmem⟩ := ih h
          exact ⟨k + 1, l, by omega, .step hl (m2 x rfl) hm hw, hleaf, hmem⟩

theorem safe_omScan (oid xid : Nat) (es : List Entry) (s : OmScan) : Safe (omScan oid xid es s) := by
  induction es generalizing s with
  | nil => exact safe_ok _
  | cons x xs ih =>
    unfold omScan
    refine safe_bind safe_require fun _ h1 => ?_
    have := (require_eq_ok _).1 h1
    refine safe_bind (safe_rdLE (by omega)) fun _ _ => safe_bind (safe_rdLE (by omega)) fun _ _ => ?_
    simp only
    split
    · exact safe_ok _
    · split
      · exact safe_ok _
      · exact ih _

theorem safe_omSubNode {fetch : Nat → Res Bytes} (hf : ∀ b, Safe (fetch b)) (block : Nat) : Safe (omSubNode fetch block) := by
  unfold omSubNode
  exact safe_bind safe_require fun _ _ => safe_bind (hf _) fun d _ => safe_bind (readNode_spec d).1 fun _ _ => safe_bind safe_require fun _ _ =>
    safe_bind safe_require fun _ _ => safe_bind safe_require fun _ _ => safe_ok _

theorem safe_omSub {fetch : Nat → Res Bytes} (hf : ∀ b, Safe (fetch b)) (value : Bytes) : Safe (omSub fetch value) := by
  unfold omSub
  refine safe_bind safe_require fun _ h1 => ?_
  have := (require_eq_ok _).1 h1
  exact safe_bind (safe_rdLE (by omega)) fun _ _ => safe_omSubNode hf _

theorem safe_omLoop {fetch : Nat → Res Bytes} (hf : ∀ b, Safe (fetch b)) (oid xid fuel : Nat) (n : Node) : Safe (omLoop fetch oid xid fuel n) := by
  induction fuel generalizing n with
  | zero => exact safe_err
  | succ fuel ih =>
    unfold omLoop
    refine safe_bind ?_ fun q _ => ?_
    · unfold omEntryFromNode
      refine safe_bind (safe_omScan _ _ _ _) fun s _ => ?_
      split
      · split <;> exact safe_ok _
      · split <;> exact safe_ok _
    · split
      · exact safe_ok _
      · split
        · exact safe_ok _
        · split
          · exact safe_err
          · exact safe_bind (safe_omSub hf _) fun _ _ => ih _

/-- a root node that is read has a footer -/
theorem readNode_footer {d : Bytes} {n : Node} (h : readNode d = ok n) (hr : n.flags % 2 ≠ 0) : ∃ f, n.footer = some f := by
  obtain ⟨_, _, rfl⟩ := ((readNode_spec d).2 n).1 h
  simp only at hr ⊢
  unfold footerOf
  rw [if_pos hr]
  exact ⟨_, rfl⟩

theorem safe_omRoot {fetch : Nat → Res Bytes} (hf : ∀ b, Safe (fetch b)) (block : Nat) : Safe (omRoot fetch block) := by
  unfold omRoot
  refine safe_bind safe_require fun _ _ => safe_bind (hf _) fun d _ => safe_bind (readNode_spec d).1 fun n hn => safe_bind safe_require fun _ _ =>
    safe_bind safe_require fun _ _ => safe_bind safe_require fun _ h1 => ?_
  have := (require_eq_ok _).1 h1
  obtain ⟨f, hf⟩ := readNode_footer hn (by omega)
  rw [hf]
  exact safe_bind safe_require fun _ _ => safe_bind safe_require fun _ _ => safe_bind safe_require fun _ _ => safe_ok _

theorem safe_omDescriptor {fetch : Nat → Res Bytes} (hf : ∀ b, Safe (fetch b)) (root oid xid : Nat) : Safe (omDescriptor fetch root oid xid) := by
  unfold omDescriptor omLookup
  refine safe_bind (safe_bind (safe_omRoot hf _) fun _ _ => safe_omLoop hf _ _ _ _) fun r _ => ?_
  split
  · exact safe_ok _
  · exact safe_err
  · refine safe_bind safe_require fun _ h1 => ?_
    have := (require_eq_ok _).1 h1
    refine safe_bind (safe_rdLE (by omega)) fun _ _ => safe_bind (safe_rdLE (by omega)) fun _ _ => safe_bind safe_require fun _ h2 => ?_
    have := (require_eq_ok _).1 h2
    exact safe_bind (safe_rdLE (by omega)) fun _ _ => safe_bind (safe_rdLE (by omega)) fun _ _ => safe_bind (safe_rdLE (by omega)) fun _ _ => safe_ok _

structure SafeVolume (v : Volume) : Prop where
  om : ∀ b, Safe (v.omFetch b)
  fs : ∀ b, Safe (v.fsFetch b)

theorem safe_fsSub {v : Volume} (hv : SafeVolume v) (xid : Nat) (value : Bytes) : Safe (fsSub v xid value) := by
  unfold fsSub
  refine safe_bind safe_require fun _ h1 => ?_
  have := (require_eq_ok _).1 h1
  refine safe_bind (safe_rdLE (by omega)) fun _ _ => safe_bind (safe_omDescriptor hv.om _ _ _) fun r _ => ?_
  split
  · exact safe_err
  · unfold fsSubNode
    exact safe_bind safe_require fun _ _ => safe_bind (hv.fs _) fun d _ => safe_bind (readNode_spec d).1 fun _ _ => safe_bind safe_require fun _ _ =>
      safe_bind safe_require fun _ _ => safe_bind safe_require fun _ _ => safe_ok _

theorem safe_fsRootNode {v : Volume} (hv : SafeVolume v) : Safe (fsRootNode v) := by
  unfold fsRootNode
  refine safe_bind safe_require fun _ _ => safe_bind (hv.fs _) fun d _ => safe_bind (readNode_spec d).1 fun n hn => ?_
  split
  · exact safe_ok _
  · refine safe_bind safe_require fun _ _ => safe_bind safe_require fun _ _ => safe_bind safe_require fun _ h1 => ?_
    have := (require_eq_ok _).1 h1
    obtain ⟨f, hf⟩ := readNode_footer hn (by omega)
    rw [hf]
    exact safe_bind safe_require fun _ _ => safe_bind safe_require fun _ _ => safe_bind safe_require fun _ _ => safe_ok _

theorem safe_fsEntry {v : Volume} (hv : SafeVolume v) (xid i t : Nat) : Safe (fsEntry v xid i t) := by
  unfold fsEntry
  refine safe_bind (safe_fsRootNode hv) fun r _ => ?_
  split
  · exact safe_ok _
  · exact safe_fsEntryLoop (safe_fsSub hv xid) _ _ _ _

theorem safe_enumerate {α : Type} {k : Kind α} (hk : SafeKind k) {v : Volume} (hv : SafeVolume v) (xid i : Nat) : Safe (enumerate k v xid i) := by
  unfold enumerate
  refine safe_bind (safe_fsRootNode hv) fun r _ => ?_
  split
  · exact safe_ok _
  · exact safe_enumNode hk (safe_fsSub hv xid) _ _ _

end FsTree
end Verif
