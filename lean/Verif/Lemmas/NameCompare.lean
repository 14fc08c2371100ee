import Verif.Lemmas.NameHash
/-!
# Lemmas about comparing names
-/
namespace Verif
open Res
namespace Name
open Spec (excluded nameKey)

/-- characters of mappings fit in 32 bits -/
theorem nfd_bounded : nfdSparse.all (fun e => e.2.all (fun d => Nat.blt d 0x110000)) = true := by decide +kernel
theorem fold_bounded : foldTree.toList.all (fun e => Nat.blt e.2 0x110000) = true := by decide +kernel

theorem decompose_lt (c : Nat) (m : List Nat) (hc : c < 2 ^ 32) (h : decompose c = ok m) : ∀ d ∈ m, d < 2 ^ 32 := by
  rw [decompose_eq] at h
  cases hs : nfdSparse.lookup c with
  | none =>
    rw [hs] at h
    cases h
    intro d hd
    cases List.mem_singleton.1 hd
    exact hc
  | some v =>
    rw [hs] at h
    cases h
    intro d hd
    have := List.all_eq_true.1 (List.all_eq_true.1 nfd_bounded _ (lookup_mem _ _ _ hs)) d hd
    simp only [Nat.blt_eq] at this
    omega

theorem fold_lt (c f : Nat) (hc : c < 2 ^ 32) (h : fold c = ok f) : f < 2 ^ 32 := by
  rw [foldT_eq] at h
  cases h
  unfold foldT
  cases hf : foldTree.find c with
  | none => exact hc
  | some f =>
    have := List.all_eq_true.1 fold_bounded _ (tree_mem _ c f foldTree_sorted hf)
    simp only [Nat.blt_eq] at this
    simp only [Option.getD]
    omega

theorem compareMapping_lt (folding : Bool) (c : Nat) (m : List Nat) (hc : c < 2 ^ 32) (h : compareMapping folding c = ok m) : ∀ d ∈ m, d < 2 ^ 32 := by
  unfold compareMapping at h
  cases folding with
  | false => exact decompose_lt c m hc (by simpa using h)
  | true =>
    obtain ⟨f, hf⟩ := fold_ok c
    rw [if_pos rfl, hf, ok_bind] at h
    exact decompose_lt f m (fold_lt c f hc hf) h

theorem append_lt (p a b : List Nat) (h : a < b) : p ++ a < p ++ b := by
  induction p with
  | nil => exact h
  | cons x xs ih => exact List.cons_lt_cons_iff.2 (Or.inr ⟨rfl, ih⟩)

/-- the outcome of a comparison of `a` with `b` by their keys -/
def Ordered (o : Order) (a b : List Nat) : Prop := (o = .less ∧ a < b) ∨ (o = .equal ∧ a = b) ∨ (o = .greater ∧ b < a)

theorem compareCharacters_key (q n : List Nat) (hq : ∀ c ∈ q, c < 2 ^ 32) (hn : ∀ c ∈ n, c < 2 ^ 32) :
    (compareCharacters q n = .equal ∧ q = n) ∨
    (compareCharacters q n = .less ∧ ∀ x y, q ++ [2 ^ 32] ++ x < n ++ [2 ^ 32] ++ y) ∨
    (compareCharacters q n = .greater ∧ ∀ x y, n ++ [2 ^ 32] ++ y < q ++ [2 ^ 32] ++ x) := by
  induction q generalizing n with
  | nil =>
    cases n with
    | nil => exact Or.inl ⟨rfl, rfl⟩
    | cons d n =>
      refine Or.inr (Or.inr ⟨rfl, fun x y => ?_⟩)
      exact List.cons_lt_cons_iff.2 (Or.inl (hn d (List.mem_cons_self ..)))
  | cons c q ih =>
    cases n with
    | nil =>
      refine Or.inr (Or.inl ⟨rfl, fun x y => ?_⟩)
      exact List.cons_lt_cons_iff.2 (Or.inl (hq c (List.mem_cons_self ..)))
    | cons d n =>
      simp only [compareCharacters]
      by_cases h1 : c < d
      · rw [if_pos h1]
        exact Or.inr (Or.inl ⟨rfl, fun x y => List.cons_lt_cons_iff.2 (Or.inl h1)⟩)
      · rw [if_neg h1]
        by_cases h2 : c > d
        · rw [if_pos h2]
          exact Or.inr (Or.inr ⟨rfl, fun x y => List.cons_lt_cons_iff.2 (Or.inl h2)⟩)
        · rw [if_neg h2]
          have e : c = d := by omega
          subst e
          rcases ih n (fun c hc => hq c (List.mem_cons_of_mem _ hc)) (fun c hc => hn c (List.mem_cons_of_mem _ hc)) with h | h | h
          · exact Or.inl ⟨h.1, by rw [h.2]⟩
          · exact Or.inr (Or.inl ⟨h.1, fun x y => List.cons_lt_cons_iff.2 (Or.inr ⟨rfl, h.2 x y⟩)⟩)
          · exact Or.inr (Or.inr ⟨h.1, fun x y => List.cons_lt_cons_iff.2 (Or.inr ⟨rfl, h.2 x y⟩)⟩)

theorem compareLoop_key {α : Type} (dn : Decoder UInt8) (dq : Decoder α) (folding : Bool) (form : Nat → List Nat) (name : Bytes) (str : List α)
    (ns qs : List Nat) (hn : Decodes dn name ns []) (hq : Decodes dq str qs []) (fn : ∀ c ∈ ns, compareMapping folding c = ok (form c))
    (fq : ∀ c ∈ qs, compareMapping folding c = ok (form c)) :
    ∃ o, compareLoop dn dq folding name str = ok o ∧ Ordered o (nameKey form qs) (nameKey form ns) := by
  generalize hr : ([] : Bytes) = rest at hn
  induction hn generalizing str qs with
  | done s =>
    subst hr
    cases hq with
    | done =>
      refine ⟨.equal, ?_, Or.inr (Or.inl ⟨rfl, rfl⟩)⟩
      unfold compareLoop
      rw [if_pos (Or.inl rfl), if_neg (by simp), if_neg (by simp)]
    | @step _ t _ c cs h hs =>
      refine ⟨.greater, ?_, Or.inr (Or.inr ⟨rfl, ?_⟩)⟩
      · unfold compareLoop
        rw [if_pos (Or.inl rfl), if_pos (next_ne_nil dq h)]
      · simp only [nameKey, List.flatMap_nil, List.flatMap_cons]
        generalize form c = l
        cases l with
        | nil => exact List.nil_lt_cons ..
        | cons => exact List.nil_lt_cons ..
  | @step name name' r n ns h hs ih =>
    subst hr
    have hne := next_ne_nil dn h
    cases hq with
    | done =>
      refine ⟨.less, ?_, Or.inl ⟨rfl, ?_⟩⟩
      · unfold compareLoop
        rw [if_pos (Or.inr rfl), if_neg (by simp), if_pos hne]
      · simp only [nameKey, List.flatMap_nil, List.flatMap_cons]
        generalize form n = l
        cases l with
        | nil => exact List.nil_lt_cons ..
        | cons => exact List.nil_lt_cons ..
    | @step _ str' _ q qs hq' hqs =>
      have h1 := fn n (List.mem_cons_self ..)
      have h2 := fq q (List.mem_cons_self ..)
      have b1 := compareMapping_lt folding n _ (dn.bounded h) h1
      have b2 := compareMapping_lt folding q _ (dq.bounded hq') h2
      have hstep : compareLoop dn dq folding name str =
          (match compareCharacters (form q) (form n) with
            | .equal => compareLoop dn dq folding name' str'
            | o => ok o) := by
        conv => lhs; unfold compareLoop
        rw [if_neg (by intro hc; rcases hc with hc | hc; exact hne hc; exact next_ne_nil dq hq' hc)]
        split
        · rename_i hx; rw [hx] at h; cases h
        · rename_i n' name'' hx
          rw [hx] at h
          cases h
          rw [hq']
          simp only [h2, h1, ok_bind]
          cases compareCharacters (form q) (form n) <;> rfl
      rw [hstep]
      simp only [nameKey, List.flatMap_cons]
      rcases compareCharacters_key (form q) (form n) b2 b1 with hk | hk | hk
      · rw [hk.1, hk.2]
        obtain ⟨o, ho, hor⟩ := ih str' qs hqs (fun c hc => fn c (List.mem_cons_of_mem _ hc)) (fun c hc => fq c (List.mem_cons_of_mem _ hc)) rfl
        refine ⟨o, ho, ?_⟩
        rcases hor with ⟨h1, h2⟩ | ⟨h1, h2⟩ | ⟨h1, h2⟩
        · exact Or.inl ⟨h1, append_lt _ _ _ h2⟩
        · exact Or.inr (Or.inl ⟨h1, by rw [nameKey, nameKey] at h2; rw [h2]⟩)
        · exact Or.inr (Or.inr ⟨h1, append_lt _ _ _ h2⟩)
      · rw [hk.1]
        exact ⟨.less, rfl, Or.inl ⟨rfl, hk.2 _ _⟩⟩
      · rw [hk.1]
        exact ⟨.greater, rfl, Or.inr (Or.inr ⟨rfl, hk.2 _ _⟩)⟩

/-- a name or string without its end-of-string character, in characters -/
def NameOf {α : Type} (dec : Decoder α) (s : List α) (cs : List Nat) : Prop := Decodes dec (stripNul dec.isNul s) cs []

theorem compareName_key {α : Type} (dn : Decoder UInt8) (dq : Decoder α) (folding : Bool) (form : Nat → List Nat) (name : Bytes) (str : List α)
    (ns qs : List Nat) (h0 : name ≠ []) (hn : NameOf dn name ns) (hq : NameOf dq str qs) (fn : ∀ c ∈ ns, compareMapping folding c = ok (form c))
    (fq : ∀ c ∈ qs, compareMapping folding c = ok (form c)) :
    ∃ o, compareName dn dq folding name str = ok o ∧ Ordered o (nameKey form qs) (nameKey form ns) := by
  unfold compareName
  rw [require_true (by simpa using h0), ok_bind]
  exact compareLoop_key dn dq folding form _ _ ns qs hn hq fn fq

theorem safe_compareLoop {α : Type} (dn : Decoder UInt8) (dq : Decoder α) (folding : Bool) (name : Bytes) (str : List α) :
    Safe (compareLoop dn dq folding name str) := by
  fun_induction compareLoop dn dq folding name str with
  | case1 => exact safe_ok _
  | case2 => exact safe_ok _
  | case3 => exact safe_ok _
  | case4 => exact safe_err
  | case5 => exact safe_err
  | case6 name str hne n name' hn q str' hq ih =>
    obtain ⟨m1, h1, _⟩ := compareMapping_ok folding q
    obtain ⟨m2, h2, _⟩ := compareMapping_ok folding n
    rw [h1, ok_bind, h2, ok_bind]
    cases compareCharacters m1 m2
    · exact safe_ok _
    · exact ih
    · exact safe_ok _

theorem safe_compareName {α : Type} (dn : Decoder UInt8) (dq : Decoder α) (folding : Bool) (name : Bytes) (str : List α) :
    Safe (compareName dn dq folding name str) := by
  unfold compareName
  exact safe_bind safe_require (fun _ _ => safe_compareLoop dn dq folding _ _)

/-- the form of a character that is compared -/
def compareForm (folding : Bool) (c : Nat) : List Nat :=
  match compareMapping folding c with
  | ok m => m
  | _ => []

theorem compareForm_eq (folding : Bool) (c : Nat) : compareMapping folding c = ok (compareForm folding c) := by
  obtain ⟨m, h, _⟩ := compareMapping_ok folding c
  simp only [compareForm, h]

theorem ordered_less {o : Order} {a b : List Nat} (h : Ordered o a b) : o = .less ↔ a < b := by
  rcases h with ⟨h1, h2⟩ | ⟨h1, h2⟩ | ⟨h1, h2⟩
  · exact ⟨fun _ => h2, fun _ => h1⟩
  · subst h1; subst h2
    exact ⟨fun h => (by cases h), fun h => absurd h (List.lt_irrefl a)⟩
  · subst h1
    exact ⟨fun h => (by cases h), fun h => absurd (List.lt_trans h h2) (List.lt_irrefl a)⟩

theorem ordered_greater {o : Order} {a b : List Nat} (h : Ordered o a b) : o = .greater ↔ b < a := by
  rcases h with ⟨h1, h2⟩ | ⟨h1, h2⟩ | ⟨h1, h2⟩
  · subst h1
    exact ⟨fun h => (by cases h), fun h => absurd (List.lt_trans h h2) (List.lt_irrefl b)⟩
  · subst h1; subst h2
    exact ⟨fun h => (by cases h), fun h => absurd h (List.lt_irrefl a)⟩
  · exact ⟨fun _ => h2, fun _ => h1⟩

theorem ordered_equal {o : Order} {a b : List Nat} (h : Ordered o a b) : o = .equal ↔ a = b := by
  rcases h with ⟨h1, h2⟩ | ⟨h1, h2⟩ | ⟨h1, h2⟩
  · subst h1
    exact ⟨fun h => (by cases h), fun h => by subst h; exact absurd h2 (List.lt_irrefl a)⟩
  · exact ⟨fun _ => h2, fun _ => h1⟩
  · subst h1
    exact ⟨fun h => (by cases h), fun h => by subst h; exact absurd h2 (List.lt_irrefl a)⟩

/-- keys determine the forms of the characters -/
theorem nameKey_inj (form : Nat → List Nat) (a b : List Nat) (ha : ∀ c ∈ a, ∀ d ∈ form c, d < 2 ^ 32) (hb : ∀ c ∈ b, ∀ d ∈ form c, d < 2 ^ 32)
    (h : nameKey form a = nameKey form b) : a.map form = b.map form := by
  have split : ∀ (x y u v : List Nat), (∀ d ∈ x, d < 2 ^ 32) → (∀ d ∈ y, d < 2 ^ 32) → x ++ [2 ^ 32] ++ u = y ++ [2 ^ 32] ++ v → x = y ∧ u = v := by
    intro x
    induction x with
    | nil =>
      intro y u v _ hy h
      cases y with
      | nil => exact ⟨rfl, by simpa using h⟩
      | cons d y =>
        have := hy d (List.mem_cons_self ..)
        simp only [List.nil_append, List.cons_append, List.cons.injEq] at h
        omega
    | cons c x ih =>
      intro y u v hx hy h
      cases y with
      | nil =>
        have := hx c (List.mem_cons_self ..)
        simp only [List.nil_append, List.cons_append, List.cons.injEq] at h
        omega
      | cons d y =>
        simp only [List.cons_append, List.cons.injEq] at h
        obtain ⟨h1, h2⟩ := ih y u v (fun d hd => hx d (List.mem_cons_of_mem _ hd)) (fun d hd => hy d (List.mem_cons_of_mem _ hd)) h.2
        exact ⟨by rw [h.1, h1], h2⟩
  induction a generalizing b with
  | nil =>
    cases b with
    | nil => rfl
    | cons d b => simp [nameKey] at h
  | cons c a ih =>
    cases b with
    | nil => simp [nameKey] at h
    | cons d b =>
      simp only [nameKey, List.flatMap_cons] at h
      obtain ⟨h1, h2⟩ := split _ _ _ _ (ha c (List.mem_cons_self ..)) (hb d (List.mem_cons_self ..)) h
      simp only [List.map_cons]
      rw [h1, ih b (fun c hc => ha c (List.mem_cons_of_mem _ hc)) (fun c hc => hb c (List.mem_cons_of_mem _ hc)) h2]

theorem decodes_lt {α : Type} {dec : Decoder α} {s r : List α} {cs : List Nat} (h : Decodes dec s cs r) : ∀ c ∈ cs, c < 2 ^ 32 := by
  induction h with
  | done => intro c hc; cases hc
  | step h _ ih =>
    intro c hc
    rcases List.mem_cons.1 hc with hc | hc
    · subst hc; exact dec.bounded h
    · exact ih c hc

end Name
end Verif
