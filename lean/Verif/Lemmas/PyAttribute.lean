import Verif.Spec.PyAttribute
import Verif.Lemmas.AttributeRead
/-! Lemmas: method calls in Python are calls of handles -/
namespace Verif
namespace PyAttribute
open Res
open Spec (ValueOp ValueAnswer ValueAction valueStep Moved seekTo)
open Spec.PyAttribute (Step Target Seen largest)
open PyRead (Size readSize readAtSize stored)
open AttributeRead (Env State act At HasValue Faithful Working Kept Positions StepOk given)

theorem require_true {p : Prop} [Decidable p] (h : p) : require p = ok () := if_pos h
theorem require_false {p : Prop} [Decidable p] (h : ¬ p) : require p = err := if_neg h

/-- the result of a call, for an answer -/
def result (c : Call) (r : Option ValueAnswer) : Option Value :=
  match r with
  | none => none
  | some x => match answer c (ok x) with
    | .ok y => some y
    | _ => none

/-- what a call is for a value -/
def Means (v : Bytes) (c : Call) : Res (Option ValueOp) → Prop
  | .ub => False
  | .err => ∀ fault pos, Step v fault pos c none pos
  | .ok none => ∀ fault pos, Step v fault pos c (some (.bytes [])) pos
  | .ok (some o) => (∀ fault pos, Step v fault pos c (result c (valueStep v pos o).1) (valueStep v pos o).2) ∧
      ∀ (fault : Prop) pos p, fault → o ≠ .size → Moved v pos o p → Step v fault pos c none p

theorem means_read {v : Bytes} {s : Size} {n : Nat} (hn : 0 < n) (hl : n ≤ largest)
    (h : ∀ fault pos, Step v fault pos (.read s) (some (.bytes ((v.drop pos).take n))) (pos + ((v.drop pos).take n).length)) :
    Means v (.read s) (ok (some (.read n))) := by
  have : n < 2 ^ 63 := by unfold largest at hl; omega
  refine ⟨fun fault pos => ?_, fun fault pos p hf _ hm => ?_⟩
  · simp only [valueStep, if_pos this]
    exact h fault pos
  · cases hm
    exact .failed hf (by simp)

theorem opOf_read (v : Bytes) (hv : v.length < 2 ^ 64) (s : Size) : Means v (.read s) (opOf (ok v.length) (.read s)) := by
  unfold opOf
  simp only
  have whole : s = .missing ∨ s = .none_ → Means v (.read s) (do
      let n ← (ok (stored v.length) : Res Int)
      if n = 0 then return none
      require (¬ n < 0)
      require (¬ n > 2147483647)
      return some (.read n.toNat)) := by
    intro hs
    rw [ok_bind]
    have hst : stored v.length = if v.length < 2 ^ 63 then (v.length : Int) else (v.length : Int) - 2 ^ 64 := by
      unfold stored
      rw [Nat.mod_eq_of_lt hv]
    have refused : largest < v.length → ∀ fault pos, Step v fault pos (.read s) none pos := by
      intro hl fault pos
      refine .readRefused (fun n e => ?_) fun _ => hl
      rcases hs with rfl | rfl <;> cases e
    by_cases h63 : v.length < 2 ^ 63
    · rw [if_pos h63] at hst
      rw [hst]
      by_cases h0 : v.length = 0
      · rw [if_pos (by omega)]
        intro fault pos
        have e : v = [] := List.eq_nil_of_length_eq_zero h0
        subst e
        have := Step.readAll (v := []) (fault := fault) (pos := pos) hs (by simp)
        simpa using this
      · rw [if_neg (by omega), require_true (by omega), ok_bind]
        by_cases hl : v.length ≤ largest
        · rw [require_true (by unfold largest at hl; omega), ok_bind]
          refine means_read (by omega) hl fun fault pos => ?_
          have := Step.readAll (v := v) (fault := fault) (pos := pos) hs hl
          have e : (v.drop pos).take ((v.length : Int).toNat) = v.drop pos := by
            rw [Int.toNat_natCast]
            exact List.take_of_length_le (by rw [List.length_drop]; omega)
          rw [e]
          exact this
        · rw [require_false (by unfold largest at hl; omega)]
          exact refused (by omega)
    · rw [if_neg h63] at hst
      rw [hst, if_neg (by omega), require_false (by omega)]
      exact refused (by unfold largest; omega)
  cases s with
  | missing => exact whole (Or.inl rfl)
  | none_ => exact whole (Or.inr rfl)
  | other => exact fun fault pos => .readRefused (fun n e => by cases e) (fun e => by rcases e with e | e <;> cases e)
  | int i =>
    have refused : (∀ n : Nat, i = n → largest < n) → ∀ fault pos, Step v fault pos (.read (.int i)) none pos := by
      intro h fault pos
      exact .readRefused (fun n e => h n (by injection e)) (fun e => by rcases e with e | e <;> cases e)
    unfold readSize
    by_cases hr : -2 ^ 63 ≤ i ∧ i < 2 ^ 63
    · simp only [if_pos hr, ok_bind]
      by_cases h0 : i = 0
      · rw [if_pos h0]
        intro fault pos
        have := Step.read (v := v) (fault := fault) (pos := pos) 0 (by unfold largest; omega)
        subst h0
        simpa using this
      · rw [if_neg h0]
        by_cases hneg : i < 0
        · rw [require_false (by omega)]
          exact refused fun n e => by omega
        · rw [require_true (by omega), ok_bind]
          by_cases hl : i > 2147483647
          · rw [require_false (by omega)]
            exact refused fun n e => by unfold largest; omega
          · rw [require_true (by omega), ok_bind]
            have hn : i = (i.toNat : Int) := by omega
            have hle : i.toNat ≤ largest := by unfold largest; omega
            refine means_read (by omega) hle fun fault pos => ?_
            have := Step.read (v := v) (fault := fault) (pos := pos) i.toNat hle
            rw [← hn] at this
            exact this
    · simp only [if_neg hr, err_bind]
      exact refused fun n e => by unfold largest; omega

theorem opOf_readAt (v : Bytes) (size : Res Nat) (s : Size) (o : Int) : Means v (.readAt s o) (opOf size (.readAt s o)) := by
  unfold opOf
  simp only
  by_cases ho : -2 ^ 63 ≤ o ∧ o < 2 ^ 63
  · rw [require_true ho, ok_bind]
    cases s with
    | missing => exact fun fault pos => .readAtRefused fun n e => by cases e
    | none_ => exact fun fault pos => .readAtRefused fun n e => by cases e
    | other => exact fun fault pos => .readAtRefused fun n e => by cases e
    | int i =>
      have refused : (∀ n : Nat, i = n → largest < n ∨ (n ≠ 0 ∧ o < 0)) → ∀ fault pos, Step v fault pos (.readAt (.int i) o) none pos := by
        intro h fault pos
        refine .readAtRefused fun n e => ?_
        rcases h n (by injection e) with h | h
        · exact Or.inl h
        · exact Or.inr (Or.inl h)
      unfold readAtSize
      by_cases hr : -2 ^ 63 ≤ i ∧ i < 2 ^ 63
      · simp only [if_pos hr, ok_bind]
        by_cases h0 : i = 0
        · rw [if_pos h0]
          subst h0
          exact fun fault pos => .readNothing o ho.1 ho.2
        · rw [if_neg h0]
          by_cases hneg : i < 0
          · rw [require_false (by omega)]
            exact refused fun n e => by omega
          · rw [require_true (by omega), ok_bind]
            by_cases hl : i > 2147483647
            · rw [require_false (by omega)]
              exact refused fun n e => by unfold largest; omega
            · rw [require_true (by omega), ok_bind]
              by_cases hon : o < 0
              · rw [require_false (by omega)]
                exact refused fun n e => by omega
              · rw [require_true (by omega), ok_bind]
                have hn : i = (i.toNat : Int) := by omega
                have hoo : o = (o.toNat : Int) := by omega
                refine ⟨fun fault pos => ?_, fun fault pos p hf _ hm => ?_⟩
                · have := Step.readAt (v := v) (fault := fault) (pos := pos) i.toNat o.toNat (by omega) (by unfold largest; omega) (by omega)
                  rw [← hn, ← hoo] at this
                  have hs : seekTo v.length pos o 0 = some o.toNat := by simp [seekTo, hon]
                  simp only [valueStep, hs, if_pos (show i.toNat < 2 ^ 63 by omega)]
                  exact this
                · generalize hop : ValueOp.readAt i.toNat o = op at hm
                  cases hm with
                  | stays => exact .failed hf (by simp)
                  | readAt n p =>
                    injection hop with _ h2
                    subst h2
                    exact .moved _ hf
      · simp only [if_neg hr, err_bind]
        exact refused fun n e => by unfold largest; omega
  · rw [require_false ho]
    exact fun fault pos => .readAtRefused fun n e => by omega

theorem target_iff {length pos : Nat} {o w t : Int} (h : Target length pos o w t) : (w = 0 ∧ t = o) ∨ (w = 1 ∧ t = pos + o) ∨ (w = 2 ∧ t = length + o) := by
  cases h
  · exact Or.inl ⟨rfl, rfl⟩
  · exact Or.inr (Or.inl ⟨rfl, rfl⟩)
  · exact Or.inr (Or.inr ⟨rfl, rfl⟩)

theorem opOf_seek (v : Bytes) (size : Res Nat) (o w : Int) : Means v (.seek o w) (opOf size (.seek o w)) := by
  unfold opOf
  simp only
  by_cases ho : -2 ^ 63 ≤ o ∧ o < 2 ^ 63
  · rw [require_true ho, ok_bind]
    by_cases hw : -2 ^ 31 ≤ w ∧ w < 2 ^ 31
    · rw [require_true hw, ok_bind]
      refine ⟨fun fault pos => ?_, fun fault pos p hf _ hm => ?_⟩
      · have key : ∀ t : Int, Target v.length pos o w t → (∀ t', Target v.length pos o w t' → t' = t) →
            seekTo v.length pos o (whenceOf w) = (if t < 0 then none else some t.toNat) →
            Step v fault pos (.seek o w) (result (.seek o w) (valueStep v pos (.seek o (whenceOf w))).1) (valueStep v pos (.seek o (whenceOf w))).2 := by
          intro t ht hu hs
          simp only [valueStep, hs]
          by_cases hneg : t < 0
          · simp only [if_pos hneg]
            exact .seekRefused fun p _ _ hp => by
              have := hu _ hp
              omega
          · simp only [if_neg hneg, result, answer]
            rw [if_neg (by omega)]
            refine .seek t.toNat ho.1 ho.2 ?_
            rw [Int.toNat_of_nonneg (by omega)]
            exact ht
        by_cases h0 : w = 0
        · subst h0
          exact key o (.start o) (fun t' h => by cases h; rfl) rfl
        by_cases h1 : w = 1
        · subst h1
          exact key (pos + o) (.position o) (fun t' h => by cases h; rfl) rfl
        by_cases h2 : w = 2
        · subst h2
          exact key (v.length + o) (.stop o) (fun t' h => by cases h; rfl) rfl
        have hs : seekTo v.length pos o (whenceOf w) = none := by
          have : whenceOf w > 2 := by unfold whenceOf; split <;> omega
          unfold seekTo
          simp only
          rw [if_neg (by omega), if_neg (by omega), if_neg (by omega)]
        simp only [valueStep, hs]
        exact .seekRefused fun p _ _ hp => by rcases target_iff hp with h | h | h <;> omega
      · cases hm
        exact .failed hf (by simp)
    · rw [require_false hw]
      refine fun fault pos => .seekRefused fun p _ _ hp => ?_
      rcases target_iff hp with h | h | h <;> omega
  · rw [require_false ho]
    exact fun fault pos => .seekRefused fun p h1 h2 _ => ho ⟨h1, h2⟩

theorem opOf_means (v : Bytes) (hv : v.length < 2 ^ 64) (c : Call) : Means v c (opOf (ok v.length) c) := by
  cases c with
  | read s => exact opOf_read v hv s
  | readAt s o => exact opOf_readAt v _ s o
  | seek o w => exact opOf_seek v _ o w
  | getOffset =>
    refine ⟨fun fault pos => .offset, fun fault pos p hf _ hm => ?_⟩
    cases hm
    exact .failed hf (by simp)
  | getSize => exact ⟨fun fault pos => .size, fun fault pos p hf h _ => absurd rfl h⟩

variable {F : FileRead.Files} {a : Records.Attribute} {btree : Res (List DataStream.Extent)} {v : Bytes} {env : Env}

/-- what a program gets -/
def given : Res Value → Option Value
  | .ok r => some r
  | _ => none

/-- what a program sees -/
def seen (F : FileRead.Files) (btree : Res (List DataStream.Extent)) (l : List (Action × Env)) (rs : List (Res Value)) : List (Action × Prop × Option Value) :=
  List.zipWith (fun x r => (x.1, ¬ Working F btree x.2, given r)) l rs

theorem call_means (ha : HasValue F a btree v) (hv : v.length < 2 ^ 64) (he : Faithful F btree env) {s : State} {ps : List (Option Nat)} (hx : Kept btree s.extents)
    (hp : Positions F v ps s.handles) {k pos : Nat} (h1 : ps[k]?.join = some pos) (c : Call) :
    (call F a env s k c).1 ≠ ub ∧ ∃ p, Step v (¬ Working F btree env) pos c (given (call F a env s k c).1) p ∧ Kept btree (call F a env s k c).2.extents ∧
      Positions F v (ps.set k (some p)) (call F a env s k c).2.handles := by
  have hk := hp.2 k
  have hself : ps.set k (some pos) = ps := by
    apply List.ext_getElem?
    intro j
    rw [List.getElem?_set]
    split
    · next e =>
      subst e
      split
      · cases h : ps[k]? with
        | none => rw [h] at h1; cases h1
        | some y => rw [h] at h1; cases y with
          | none => cases h1
          | some z => cases h1; rfl
      · next hl => rw [List.getElem?_eq_none (by omega)]
    · rfl
  cases h2 : s.handles[k]?.join with
  | none => rw [h1, h2] at hk; exact hk.elim
  | some h =>
    rw [h1, h2] at hk
    have hsz : sizeOf F a env s k = ok v.length := by
      unfold sizeOf
      simp only [act, h2, AttributeRead.call, if_true, ha.size]
    have hm := opOf_means v hv c
    unfold call
    rw [h2, hsz]
    simp only
    cases ho : opOf (ok v.length) c with
    | ub => rw [ho] at hm; exact hm.elim
    | err =>
      rw [ho] at hm
      exact ⟨by simp, pos, hm _ pos, hx, by rw [hself]; exact hp⟩
    | ok x =>
      rw [ho] at hm
      cases x with
      | none => exact ⟨by simp, pos, hm _ pos, hx, by rw [hself]; exact hp⟩
      | some o =>
        obtain ⟨m1, m2⟩ := hm
        obtain ⟨⟨c1, c2⟩, c3⟩ := AttributeRead.call_spec ha he hx hk o
        simp only [act, h2]
        generalize hr : AttributeRead.call F a env o s.extents h = r at c1 c2 c3
        refine ⟨?_, ?_⟩
        · cases hr1 : r.1 with
          | ub => exact absurd hr1 c1
          | err => simp [answer]
          | ok y =>
            cases y <;> simp only [answer] <;> try simp
            cases c <;> simp
            split <;> simp
        · rcases c2 with ⟨c2, c4⟩ | ⟨c2, c4, c5, p, c6, c7⟩
          · refine ⟨_, ?_, c3, hp.set k c4⟩
            have e : given (answer c r.1) = result c (valueStep v pos o).1 := by
              rw [← c2]
              cases hr1 : r.1 with
              | ub => exact absurd hr1 c1
              | err => rfl
              | ok y =>
                show given (answer c (ok y)) = match answer c (ok y) with | .ok y => some y | _ => none
                cases answer c (ok y) <;> rfl
            rw [e]
            exact m1 _ pos
          · refine ⟨p, ?_, c3, hp.set k c7⟩
            rw [c5]
            exact m2 _ pos p c2 c4 c6

theorem run_spec (ha : HasValue F a btree v) (hv : v.length < 2 ^ 64) : ∀ (l : List (Action × Env)), (∀ x ∈ l, Faithful F btree x.2) → ∀ (s : State) (ps : List (Option Nat)), Kept btree s.extents →
    Positions F v ps s.handles → (∀ r ∈ run F a l s, r ≠ ub) ∧ Seen v ps (seen F btree l (run F a l s))
  | [], _, _, _, _, _ => ⟨by simp [run], trivial⟩
  | (x, env) :: l, hl, s, ps, hx, hp => by
    have he := hl (x, env) (by simp)
    have ih := run_spec ha hv l fun y hy => hl y (by simp [hy])
    simp only [run, seen, List.zipWith_cons_cons, List.mem_cons, forall_eq_or_imp]
    cases x with
    | get =>
      simp only [step, act, Seen]
      cases hc : env.alloc with
      | ub => exact absurd hc he.alloc
      | err =>
        obtain ⟨i1, i2⟩ := ih s ps hx hp
        exact ⟨⟨by simp, i1⟩, Or.inr ⟨fun hw => by (rw [hw.alloc] at hc; cases hc), rfl, i2⟩⟩
      | ok u =>
        obtain ⟨i1, i2⟩ := ih { s with handles := s.handles ++ [some none] } (ps ++ [some 0]) hx hp.append
        exact ⟨⟨by simp, i1⟩, Or.inl ⟨rfl, i2⟩⟩
    | delete k =>
      simp only [step, act, Seen]
      obtain ⟨i1, i2⟩ := ih { s with handles := s.handles.set k none } (ps.set k none) hx (hp.set k trivial)
      exact ⟨⟨by simp, i1⟩, rfl, i2⟩
    | call k c =>
      simp only [step, Seen]
      cases h1 : ps[k]?.join with
      | none =>
        have hk := hp.2 k
        cases h2 : s.handles[k]?.join with
        | none =>
          have e : call F a env s k c = (err, s) := by unfold call; rw [h2]
          rw [e]
          obtain ⟨i1, i2⟩ := ih s ps hx hp
          exact ⟨⟨by simp, i1⟩, rfl, i2⟩
        | some h => rw [h1, h2] at hk; exact hk.elim
      | some pos =>
        obtain ⟨c1, p, c2, c3, c4⟩ := call_means ha hv he hx hp h1 c
        obtain ⟨i1, i2⟩ := ih _ _ c3 c4
        exact ⟨⟨c1, i1⟩, p, c2, i2⟩

end PyAttribute
end Verif
