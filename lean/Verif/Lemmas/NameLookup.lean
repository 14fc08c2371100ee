import Verif.Model.NameLookup
import Verif.Lemmas.FsTree
import Verif.Lemmas.Records
/-! Lookup of a directory record by name -/
namespace Verif
open Res Spec
namespace NameLookup
open BTree FsTree Name Records

/-- how the string compares with the name in a key -/
def keyOrder {α : Type} (dn : Decoder UInt8) (dq : Decoder α) (folding : Bool) (str : List α) (strHash : Nat) (key : Bytes) : Res Order := do
  let (name, hash) ← readDirectoryKey key
  compareRecord dn dq folding name hash str strHash

theorem lookupLeaf_spec {α : Type} (dn : Decoder UInt8) (dq : Decoder α) (folding : Bool) {parent : Nat} (hp : parent < 2 ^ 60) (str : List α) (strHash : Nat)
    (cmp : Bytes → Order) (rs : List Record) (hk : ∀ r ∈ rs, 8 ≤ r.1.length)
    (hc : ∀ r ∈ rs, IsOf parent 9 r → keyOrder dn dq folding str strHash r.1 = ok (cmp r.1)) :
    lookupLeaf dn dq folding parent str strHash rs =
      match (recordsOf rs parent 9).find? (fun r => decide (cmp r.1 = .equal)) with
      | none => ok none
      | some r => do
        let x ← readDirectoryRecord r
        return some x := by
  induction rs with
  | nil => rfl
  | cons r rs ih =>
    have hl := hk r (by simp)
    have ih := ih (fun x hx => hk x (by simp [hx])) (fun x hx => hc x (by simp [hx]))
    unfold lookupLeaf
    rw [require_true (by omega), ok_bind, rdLE_field (by omega), ok_bind]
    by_cases h : field r.1 0 8 = lookupKey 9 parent
    · have hi := (lookupKey_iff (by decide) hp).1 h
      have hf : recordsOf (r :: rs) parent 9 = r :: recordsOf rs parent 9 := by
        unfold recordsOf
        rw [List.filter_cons_of_pos]
        exact decide_eq_true hi
      have hr := hc r (by simp) hi
      unfold keyOrder at hr
      simp only [bind_eq_ok] at hr
      obtain ⟨⟨name, hash⟩, h1, h2⟩ := hr
      simp only at h2
      rw [if_pos h, hf, h1, ok_bind]
      simp only
      rw [h2, ok_bind, List.find?_cons]
      by_cases he : cmp r.1 = .equal
      · rw [if_pos he]
        simp only [he, decide_true]
        unfold readDirectoryRecord
        rw [h1, ok_bind]
        simp only
        cases readDirectoryValue r.2 <;> rfl
      · rw [if_neg he]
        simp only [he, decide_false]
        exact ih
    · have hf : recordsOf (r :: rs) parent 9 = recordsOf rs parent 9 := by
        unfold recordsOf
        rw [List.filter_cons_of_neg]
        simp only [decide_eq_true_eq]
        exact fun h' => h ((lookupKey_iff (by decide) hp).2 h')
      rw [if_neg h, hf]
      exact ih

/-- a key that is not behind the string looked for -/
def NotBehind (parent : Nat) (cmp : Bytes → Order) (key : Bytes) : Prop :=
  ¬ fsOver parent 9 key ∧ (fsId key = parent ∧ fsType key = 9 → cmp key ≠ .less)

/-- once a name is behind the string, all further ones are -/
def Monotone (parent : Nat) (cmp : Bytes → Order) (rs : List Record) : Prop :=
  rs.Pairwise (fun a b => IsOf parent 9 a → IsOf parent 9 b → cmp a.1 = .less → cmp b.1 = .less)

/-- records behind a record that is behind -/
theorem behind_tail {parent : Nat} {cmp : Bytes → Order} {r : Record} {rs : List Record} (hs : (r :: rs).Pairwise (fun a b => fsLe a.1 b.1))
    (hm : Monotone parent cmp (r :: rs)) (h : ¬ NotBehind parent cmp r.1) : ∀ x ∈ r :: rs, IsOf parent 9 x → cmp x.1 = .less := by
  intro x hx hi
  by_cases hov : fsOver parent 9 r.1
  · rcases List.mem_cons.1 hx with rfl | hx
    · exact absurd hi (not_isOf_of_over hov)
    · exact absurd hi (not_isOf_of_over (over_of_le ((List.pairwise_cons.1 hs).1 x hx) hov))
  · have h2 : IsOf parent 9 r ∧ cmp r.1 = .less := by
      unfold NotBehind at h
      by_cases ha : fsId r.1 = parent ∧ fsType r.1 = 9
      · refine ⟨ha, ?_⟩
        cases hcr : cmp r.1 with
        | less => rfl
        | equal => exact absurd ⟨hov, fun _ => by simp [hcr]⟩ h
        | greater => exact absurd ⟨hov, fun _ => by simp [hcr]⟩ h
      · exact absurd ⟨hov, fun h' => absurd h' ha⟩ h
    rcases List.mem_cons.1 hx with rfl | hx
    · exact h2.2
    · exact (List.pairwise_cons.1 hm).1 x hx h2.1 hi h2.2

theorem lookupBranch_spec {α : Type} (dn : Decoder UInt8) (dq : Decoder α) {parent : Nat} (str : List α) (strHash : Nat)
    (cmp : Bytes → Order) {p : Child} {cs : List Child} (hf : ∀ c ∈ cs, FirstKey c) (hp : NotBehind parent cmp p.key)
    (hk : ∀ r ∈ allRecords cs, 8 ≤ r.1.length) (hs : (allRecords cs).Pairwise (fun a b => fsLe a.1 b.1)) (hm : Monotone parent cmp (allRecords cs))
    (hc : ∀ r ∈ allRecords cs, IsOf parent 9 r → keyOrder dn dq false str strHash r.1 = ok (cmp r.1)) :
    ∃ a c b, p :: cs = a ++ c :: b ∧
      lookupBranch dn dq parent str strHash (cs.map (fun c => (c.key, c.value))) (some (p.key, p.value)) = ok (some (c.key, c.value)) ∧
      NotBehind parent cmp c.key ∧ ∀ r ∈ allRecords b, IsOf parent 9 r → cmp r.1 = .less := by
  induction cs generalizing p with
  | nil => exact ⟨[], p, [], rfl, rfl, hp, by simp [allRecords]⟩
  | cons c cs ih =>
    obtain ⟨r, t, f1, f2⟩ := hf c (by simp)
    have e : allRecords (c :: cs) = r :: (t ++ allRecords cs) := by rw [allRecords_cons, f1]; rfl
    have hl : 8 ≤ c.key.length := by
      rw [← f2]
      exact hk r (by rw [e]; simp)
    have happ := allRecords_cons c cs
    have hnext := ih (p := c) (fun x hx => hf x (by simp [hx]))
    have rest : NotBehind parent cmp c.key → ∃ a d b, c :: cs = a ++ d :: b ∧
      lookupBranch dn dq parent str strHash (cs.map (fun c => (c.key, c.value))) (some (c.key, c.value)) = ok (some (d.key, d.value)) ∧
      NotBehind parent cmp d.key ∧ ∀ r ∈ allRecords b, IsOf parent 9 r → cmp r.1 = .less := fun hn =>
      hnext hn (fun x hx => hk x (by rw [happ]; simp [hx])) (by rw [happ] at hs; exact (List.pairwise_append.1 hs).2.1)
        (by unfold Monotone at hm ⊢; rw [happ] at hm; exact (List.pairwise_append.1 hm).2.1) (fun x hx => hc x (by rw [happ]; simp [hx]))
    rw [List.map_cons]
    unfold lookupBranch
    simp only
    rw [require_true (by omega), ok_bind, rdLE_field (by omega), ok_bind]
    by_cases hn : NotBehind parent cmp c.key
    · obtain ⟨a, d, b, h1, h2, h3, h4⟩ := rest hn
      refine ⟨p :: a, d, b, by rw [h1]; rfl, ?_, h3, h4⟩
      have hneg : ¬ (field c.key 0 8 % 2 ^ 60 > parent ∨ (field c.key 0 8 % 2 ^ 60 = parent ∧ field c.key 0 8 / 2 ^ 60 > 9)) := hn.1
      rw [if_neg hneg]
      by_cases hi : field c.key 0 8 % 2 ^ 60 = parent ∧ field c.key 0 8 / 2 ^ 60 = 9
      · rw [if_pos hi]
        have hr := hc r (by rw [e]; simp) (by unfold IsOf; rw [f2]; exact hi)
        rw [f2] at hr
        unfold keyOrder at hr
        simp only [bind_eq_ok] at hr
        obtain ⟨⟨name, hash⟩, g1, g2⟩ := hr
        simp only at g2
        rw [g1, ok_bind]
        simp only
        rw [g2, ok_bind, if_neg (hn.2 hi), h2]
      · rw [if_neg hi, h2]
    · refine ⟨[], p, c :: cs, rfl, ?_, hp, ?_⟩
      · by_cases hov : field c.key 0 8 % 2 ^ 60 > parent ∨ (field c.key 0 8 % 2 ^ 60 = parent ∧ field c.key 0 8 / 2 ^ 60 > 9)
        · rw [if_pos hov]
          rfl
        · rw [if_neg hov]
          have hi : (fsId c.key = parent ∧ fsType c.key = 9) ∧ cmp c.key = .less := by
            by_cases ha : fsId c.key = parent ∧ fsType c.key = 9
            · refine ⟨ha, ?_⟩
              cases hcr : cmp c.key with
              | less => rfl
              | equal => exact absurd ⟨hov, fun _ => by simp [hcr]⟩ hn
              | greater => exact absurd ⟨hov, fun _ => by simp [hcr]⟩ hn
            · exact absurd ⟨hov, fun h' => absurd h' ha⟩ hn
          have hi1 : field c.key 0 8 % 2 ^ 60 = parent ∧ field c.key 0 8 / 2 ^ 60 = 9 := hi.1
          rw [if_pos hi1]
          have hr := hc r (by rw [e]; simp) (by unfold IsOf; rw [f2]; exact hi.1)
          rw [f2] at hr
          unfold keyOrder at hr
          simp only [bind_eq_ok] at hr
          obtain ⟨⟨name, hash⟩, g1, g2⟩ := hr
          simp only at g2
          rw [g1, ok_bind]
          simp only
          rw [g2, ok_bind, if_pos hi.2]
          rfl
      · rw [e]
        rw [e] at hs hm
        exact behind_tail hs hm (by rw [f2]; exact hn)

/-- The leaf that is searched: everything behind it is behind the string, and unless there is nothing before it, its first record is not. -/
theorem lookupNode_spec {α : Type} (dn : Decoder UInt8) (dq : Decoder α) (folding : Bool) {parent : Nat} (str : List α) (strHash : Nat)
    (cmp : Bytes → Order) {sub : Bytes → Res Node} {rel : Bytes → TNode → Prop}
    (hsubs : ∀ v t, rel v t → ∃ m, sub v = ok m ∧ view m = t) {depth : Nat} {n : Node} {rs : List Record} (h : IsTree rel depth (view n) rs)
    (hk : ∀ r ∈ rs, 8 ≤ r.1.length) (hs : rs.Pairwise (fun a b => fsLe a.1 b.1)) (hm : Monotone parent cmp rs)
    (hc : ∀ r ∈ rs, IsOf parent 9 r → keyOrder dn dq false str strHash r.1 = ok (cmp r.1))
    (hfirst : n.leaf = false → ∀ r ∈ rs.head?, NotBehind parent cmp r.1) :
    ∃ a l b, rs = a ++ (l ++ b) ∧ lookupNode dn dq folding sub parent str strHash depth n = lookupLeaf dn dq folding parent str strHash l ∧
      (∀ r ∈ b, IsOf parent 9 r → cmp r.1 = .less) ∧ (n.leaf = false → ∃ r ∈ l.head?, NotBehind parent cmp r.1) ∧ (n.leaf = true → a = [] ∧ b = []) := by
  induction depth generalizing n rs with
  | zero => exact absurd h (by unfold IsTree; exact id)
  | succ depth ih =>
    unfold IsTree at h
    rcases h with ⟨hl, he⟩ | ⟨hl, cs, hne, he, hrs, hch⟩
    · have hl : n.leaf = true := hl
      have he : n.entries = rs := he
      refine ⟨[], rs, [], by simp, ?_, by simp, by simp [hl], by simp⟩
      unfold lookupNode
      rw [if_pos hl, he]
    · have hl : n.leaf = false := hl
      have he : n.entries = cs.map (fun c => (c.key, c.value)) := he
      have hrs : rs = allRecords cs := hrs
      subst hrs
      cases cs with
      | nil => exact absurd rfl hne
      | cons c cs =>
        have hf : ∀ x ∈ c :: cs, FirstKey x := fun x hx => firstKey_of (hch x hx).2.2
        obtain ⟨r, t, f1, f2⟩ := hf c (by simp)
        have e : allRecords (c :: cs) = r :: (t ++ allRecords cs) := by rw [allRecords_cons, f1]; rfl
        have hn : NotBehind parent cmp c.key := by
          rw [← f2]
          exact hfirst hl r (by rw [e]; simp)
        have happ := allRecords_cons c cs
        obtain ⟨a, d, b, h1, h2, h3, h4⟩ := lookupBranch_spec dn dq str strHash cmp (parent := parent) (p := c) (cs := cs) (fun x hx => hf x (by simp [hx])) hn
          (fun x hx => hk x (by rw [happ]; simp [hx])) (by rw [happ] at hs; exact (List.pairwise_append.1 hs).2.1)
          (by unfold Monotone at hm ⊢; rw [happ] at hm; exact (List.pairwise_append.1 hm).2.1) (fun x hx => hc x (by rw [happ]; simp [hx]))
        have hl8 : 8 ≤ c.key.length := by
          rw [← f2]
          exact hk r (by rw [e]; simp)
        have hstart : lookupBranch dn dq parent str strHash ((c :: cs).map (fun c => (c.key, c.value))) none = ok (some (d.key, d.value)) := by
          rw [List.map_cons]
          unfold lookupBranch
          simp only
          rw [require_true (by omega), ok_bind, rdLE_field (by omega), ok_bind]
          have hneg : ¬ (field c.key 0 8 % 2 ^ 60 > parent ∨ (field c.key 0 8 % 2 ^ 60 = parent ∧ field c.key 0 8 / 2 ^ 60 > 9)) := hn.1
          rw [if_neg hneg]
          by_cases hi : field c.key 0 8 % 2 ^ 60 = parent ∧ field c.key 0 8 / 2 ^ 60 = 9
          · rw [if_pos hi]
            have hr := hc r (by rw [e]; simp) (by unfold IsOf; rw [f2]; exact hi)
            rw [f2] at hr
            unfold keyOrder at hr
            simp only [bind_eq_ok] at hr
            obtain ⟨⟨name, hash⟩, g1, g2⟩ := hr
            simp only at g2
            rw [g1, ok_bind]
            simp only
            rw [g2, ok_bind, if_neg (hn.2 hi), h2]
          · rw [if_neg hi, h2]
        have hd : d ∈ c :: cs := by rw [h1]; simp
        obtain ⟨m, m1, m2⟩ := hsubs _ _ (hch d hd).1
        have hsplit : allRecords (c :: cs) = allRecords a ++ (d.records ++ allRecords b) := by
          rw [h1]
          unfold allRecords
          simp
        rw [hsplit] at hk hs hc
        unfold Monotone at hm
        rw [hsplit] at hm
        obtain ⟨r', t', f1', f2'⟩ := hf d hd
        obtain ⟨a', l, b', k1, k2, k3, k4, k5⟩ := ih (n := m) (rs := d.records) (by rw [m2]; exact (hch d hd).2.1) (fun r hr => hk r (by simp [hr]))
          (List.pairwise_append.1 (List.pairwise_append.1 hs).2.1).1 (List.pairwise_append.1 (List.pairwise_append.1 hm).2.1).1
          (fun r hr => hc r (by simp [hr])) (by
            intro _ x hx
            rw [f1'] at hx
            simp only [List.head?_cons, Option.mem_def, Option.some.injEq] at hx
            rw [← hx, f2']
            exact h3)
        refine ⟨allRecords a ++ a', l, b' ++ allRecords b, by rw [hsplit, k1]; simp, ?_, ?_, ?_, by simp [hl]⟩
        · unfold lookupNode
          rw [if_neg (by simp [hl]), he, hstart, ok_bind]
          simp only
          rw [m1, ok_bind]
          exact k2
        · intro x hx
          rcases List.mem_append.1 hx with hx | hx
          · exact k3 x hx
          · exact h4 x hx
        · intro _
          cases hml : m.leaf with
          | false => exact k4 hml
          | true =>
            obtain ⟨ha, hb⟩ := k5 hml
            subst ha hb
            rw [List.nil_append, List.append_nil] at k1
            rw [k1] at f1'
            exact ⟨r', by rw [f1']; simp, by rw [f2']; exact h3⟩

/-- A record is found if it is the only one that compares equal in a leaf, does not compare behind in branch nodes, and all further records of the directory do. -/
theorem lookupNode_found {α : Type} (dn : Decoder UInt8) (dq : Decoder α) (folding : Bool) {parent : Nat} (hpar : parent < 2 ^ 60) (str : List α) (strHash : Nat)
    (cmp leafCmp : Bytes → Order) {sub : Bytes → Res Node} {rel : Bytes → TNode → Prop}
    (hsubs : ∀ v t, rel v t → ∃ m, sub v = ok m ∧ view m = t) {depth : Nat} {n : Node} {rs : List Record} (h : IsTree rel depth (view n) rs)
    (hk : ∀ r ∈ rs, 8 ≤ r.1.length) (hs : rs.Pairwise (fun a b => fsLe a.1 b.1)) (hm : Monotone parent cmp rs)
    (hc : ∀ r ∈ rs, IsOf parent 9 r → keyOrder dn dq false str strHash r.1 = ok (cmp r.1))
    (hlc : ∀ r ∈ rs, IsOf parent 9 r → keyOrder dn dq folding str strHash r.1 = ok (leafCmp r.1))
    (hfirst : n.leaf = false → ∀ r ∈ rs.head?, NotBehind parent cmp r.1)
    {before after : List Record} {r : Record} (hr : rs = before ++ r :: after) (hi : IsOf parent 9 r) (he : leafCmp r.1 = .equal)
    (hu : ∀ x ∈ before, IsOf parent 9 x → leafCmp x.1 ≠ .equal)
    (hpos : n.leaf = true ∨ (cmp r.1 ≠ .less ∧ ∀ x ∈ after, IsOf parent 9 x → cmp x.1 = .less)) :
    lookupNode dn dq folding sub parent str strHash depth n = (do
      let x ← readDirectoryRecord r
      return some x) := by
  obtain ⟨a, l, b, e1, e2, e3, e4, e5⟩ := lookupNode_spec dn dq folding str strHash cmp hsubs h hk hs hm hc hfirst
  rw [e2, lookupLeaf_spec dn dq folding hpar str strHash leafCmp l (fun x hx => hk x (by rw [e1]; simp [hx])) (fun x hx => hlc x (by rw [e1]; simp [hx]))]
  -- the record is in the leaf
  have hin : ∃ l1 l2, l = l1 ++ r :: l2 ∧ before = a ++ l1 := by
    rw [hr] at e1
    rcases List.append_eq_append_iff.1 e1 with ⟨u, g1, g2⟩ | ⟨u, g1, g2⟩
    · -- `a = before ++ u`
      cases u with
      | nil =>
        rw [List.append_nil] at g1
        rw [List.nil_append] at g2
        cases l with
        | nil =>
          exfalso
          rw [List.nil_append] at g2
          cases hleaf : n.leaf with
          | true =>
            have hb := (e5 hleaf).2
            rw [hb] at g2
            exact List.cons_ne_nil _ _ g2
          | false =>
            obtain ⟨x, hx, _⟩ := e4 hleaf
            exact absurd hx (by simp)
        | cons x l =>
          rw [List.cons_append] at g2
          refine ⟨[], l, ?_, by rw [g1]; simp⟩
          rw [(List.cons.inj g2).1]
          rfl
      | cons x u =>
        exfalso
        rw [List.cons_append] at g2
        obtain ⟨g3, g4⟩ := List.cons.inj g2
        subst g3
        cases hleaf : n.leaf with
        | true =>
          have ha := (e5 hleaf).1
          rw [ha] at g1
          simp at g1
        | false =>
          rcases hpos with hpos | hpos
          · rw [hleaf] at hpos
            cases hpos
          · obtain ⟨y, hy, hyn⟩ := e4 hleaf
            cases l with
            | nil => simp at hy
            | cons z l =>
              simp only [List.head?_cons, Option.mem_def, Option.some.injEq] at hy
              subst hy
              have hza : z ∈ after := by rw [g4]; simp
              have hle : fsLe r.1 z.1 := by
                rw [hr] at hs
                exact (List.pairwise_cons.1 (List.pairwise_append.1 hs).2.1).1 z hza
              have hzi : IsOf parent 9 z := by
                have h1 := hyn.1
                unfold IsOf at hi ⊢
                unfold fsOver at h1
                unfold fsLe at hle
                omega
              exact hyn.2 hzi (hpos.2 z hza hzi)
    · -- `before = a ++ u`
      rcases List.append_eq_append_iff.1 g2 with ⟨w, k1, k2⟩ | ⟨w, k1, k2⟩
      · -- `u = l ++ w`: behind the leaf
        exfalso
        have hrb : r ∈ b := by rw [k2]; simp
        cases hleaf : n.leaf with
        | true =>
          have hb := (e5 hleaf).2
          rw [hb] at hrb
          simp at hrb
        | false =>
          rcases hpos with hpos | hpos
          · rw [hleaf] at hpos
            cases hpos
          · exact hpos.1 (e3 r hrb hi)
      · cases w with
        | nil =>
          exfalso
          rw [List.nil_append] at k2
          have hrb : r ∈ b := by rw [← k2]; simp
          cases hleaf : n.leaf with
          | true =>
            have hb := (e5 hleaf).2
            rw [hb] at hrb
            simp at hrb
          | false =>
            rcases hpos with hpos | hpos
            · rw [hleaf] at hpos
              cases hpos
            · exact hpos.1 (e3 r hrb hi)
        | cons x w =>
          rw [List.cons_append] at k2
          exact ⟨u, w, by rw [k1, (List.cons.inj k2).1], g1⟩
  obtain ⟨l1, l2, hl, hb⟩ := hin
  have hfind : (recordsOf l parent 9).find? (fun r => decide (leafCmp r.1 = .equal)) = some r := by
    rw [hl]
    unfold recordsOf
    rw [List.filter_append, List.filter_cons_of_pos (by exact decide_eq_true hi), List.find?_append]
    have hnone : (l1.filter (fun r => decide (IsOf parent 9 r))).find? (fun r => decide (leafCmp r.1 = .equal)) = none := by
      rw [List.find?_eq_none]
      intro x hx
      rw [List.mem_filter] at hx
      simp only [decide_eq_true_eq] at hx ⊢
      exact hu x (by rw [hb]; simp [hx.1]) hx.2
    rw [hnone, List.find?_cons]
    simp [he]
  rw [hfind]

/-- what is found is a record of the directory that compares equal -/
theorem lookupNode_sound {α : Type} (dn : Decoder UInt8) (dq : Decoder α) (folding : Bool) {parent : Nat} (hpar : parent < 2 ^ 60) (str : List α) (strHash : Nat)
    (cmp leafCmp : Bytes → Order) {sub : Bytes → Res Node} {rel : Bytes → TNode → Prop}
    (hsubs : ∀ v t, rel v t → ∃ m, sub v = ok m ∧ view m = t) {depth : Nat} {n : Node} {rs : List Record} (h : IsTree rel depth (view n) rs)
    (hk : ∀ r ∈ rs, 8 ≤ r.1.length) (hs : rs.Pairwise (fun a b => fsLe a.1 b.1)) (hm : Monotone parent cmp rs)
    (hc : ∀ r ∈ rs, IsOf parent 9 r → keyOrder dn dq false str strHash r.1 = ok (cmp r.1))
    (hlc : ∀ r ∈ rs, IsOf parent 9 r → keyOrder dn dq folding str strHash r.1 = ok (leafCmp r.1))
    (hfirst : n.leaf = false → ∀ r ∈ rs.head?, NotBehind parent cmp r.1) :
    lookupNode dn dq folding sub parent str strHash depth n = ok none ∨
      ∃ r ∈ rs, IsOf parent 9 r ∧ leafCmp r.1 = .equal ∧ lookupNode dn dq folding sub parent str strHash depth n = (do
        let x ← readDirectoryRecord r
        return some x) := by
  obtain ⟨a, l, b, e1, e2, e3, e4, e5⟩ := lookupNode_spec dn dq folding str strHash cmp hsubs h hk hs hm hc hfirst
  rw [e2, lookupLeaf_spec dn dq folding hpar str strHash leafCmp l (fun x hx => hk x (by rw [e1]; simp [hx])) (fun x hx => hlc x (by rw [e1]; simp [hx]))]
  cases hf : (recordsOf l parent 9).find? (fun r => decide (leafCmp r.1 = .equal)) with
  | none => exact .inl rfl
  | some r =>
    have h1 := List.find?_some hf
    have h2 := List.mem_of_find?_eq_some hf
    unfold recordsOf at h2
    rw [List.mem_filter] at h2
    simp only [decide_eq_true_eq] at h1 h2
    exact .inr ⟨r, by rw [e1]; simp [h2.1], h2.2, h1, rfl⟩

end NameLookup
end Verif
