import Verif.Spec.Threads
import Verif.Lemmas.NodeCache
/-!
# Lemmas about threads
-/
namespace Verif
open Res
namespace Threads
open BTree FsTree NodeCache Spec.Threads

theorem act_lookup_some {α : Type} (p : Policy) {b : Nat} (k : Option Slot → Proc α) {c : Cache} {s : Slot} (h : c.slots.find? (fun t => t.block = b) = some s) :
    (Proc.lookup b k).act p c = (k (some s), { c with slots := p.touch c.slots s }) := by
  simp only [Proc.act, h]

theorem act_lookup_none {α : Type} (p : Policy) {b : Nat} (k : Option Slot → Proc α) {c : Cache} (h : c.slots.find? (fun t => t.block = b) = none) :
    (Proc.lookup b k).act p c = (k none, c) := by
  simp only [Proc.act, h]

theorem run_lookup_some {α : Type} (p : Policy) {b : Nat} (k : Option Slot → Proc α) {c : Cache} {s : Slot} (h : c.slots.find? (fun t => t.block = b) = some s) :
    (Proc.lookup b k).run p c = (k (some s)).run p { c with slots := p.touch c.slots s } := by
  simp only [Proc.run, h]

theorem run_lookup_none {α : Type} (p : Policy) {b : Nat} (k : Option Slot → Proc α) {c : Cache} (h : c.slots.find? (fun t => t.block = b) = none) :
    (Proc.lookup b k).run p c = (k none).run p c := by
  simp only [Proc.run, h]

theorem run_act {α : Type} (p : Policy) (m : Proc α) (c : Cache) : (m.act p c).1.run p (m.act p c).2 = m.run p c := by
  cases m with
  | ret r => rfl
  | lookup b k =>
    cases h : c.slots.find? (fun t => t.block = b) with
    | none => rw [act_lookup_none p k h, run_lookup_none p k h]
    | some s => rw [act_lookup_some p k h, run_lookup_some p k h]
  | insert b n k => rfl
  | use s k =>
    simp only [Proc.act, Proc.run]
    split <;> rfl

theorem run_ret {α : Type} (p : Policy) (r : Res α) : (Proc.ret r).run p = pureRes r := rfl

theorem run_bind {α β : Type} (p : Policy) (m : Proc α) (f : α → Proc β) : (m >>= f).run p = (m.run p >>= fun a => (f a).run p) := by
  show (m.bind f).run p = _
  induction m with
  | ret r => cases r <;> rfl
  | lookup b k ih =>
    funext c
    rw [Proc.bind, NodeCache.bind_def]
    cases h : c.slots.find? (fun t => t.block = b) with
    | none => rw [run_lookup_none p _ h, run_lookup_none p _ h, ih none, NodeCache.bind_def]
    | some s => rw [run_lookup_some p _ h, run_lookup_some p _ h, ih (some s), NodeCache.bind_def]
  | insert b n k ih =>
    funext c
    rw [Proc.bind, Proc.run, NodeCache.bind_def, Proc.run]
    dsimp only
    rw [ih, NodeCache.bind_def]
  | use s k ih =>
    funext c
    rw [Proc.bind, Proc.run, NodeCache.bind_def, Proc.run]
    dsimp only
    split
    · rw [ih, NodeCache.bind_def]
    · rfl

theorem run_use {α : Type} (p : Policy) (s : Slot) (m : Proc α) : (Proc.use s m).run p = (deref s >>= fun _ => m.run p) := by
  funext c
  rw [Proc.run, NodeCache.bind_def]
  unfold deref
  dsimp only
  split <;> rfl

theorem run_get (p : Policy) (load : Nat → Res (Option Node)) (block : Nat) : (get load block).run p = NodeCache.get p load block := by
  funext c
  unfold get NodeCache.get
  split
  · rfl
  · cases h : c.slots.find? (fun t => t.block = block) with
    | some s => rw [run_lookup_some p _ h]; rfl
    | none =>
      rw [run_lookup_none p _ h]
      dsimp only
      cases load block with
      | err => rfl
      | ub => rfl
      | ok o => cases o <;> rfl

theorem run_getRoot (p : Policy) (v : Volume) : (getRoot v).run p = NodeCache.getRoot p v := run_get _ _ _

theorem run_getSub (p : Policy) (v : Volume) (block : Nat) : (getSub v block).run p = NodeCache.getSub p v block := by
  unfold getSub NodeCache.getSub
  rw [run_bind, run_get]
  congr 1
  funext r
  cases r <;> rfl

theorem run_entryLoop (p : Policy) (v : Volume) (xid i t : Nat) : ∀ fuel s, (entryLoop v xid i t fuel s).run p = NodeCache.entryLoop p v xid i t fuel s
  | 0, _ => rfl
  | fuel + 1, s => by
    rw [entryLoop, NodeCache.entryLoop, run_use]
    congr 1
    funext _
    rw [run_bind, run_ret]
    congr 1
    funext r
    match r with
    | none => rfl
    | some none => rfl
    | some (some e) =>
      dsimp only
      split
      · rfl
      · rw [run_bind, run_ret]
        congr 1
        funext b
        rw [run_bind, run_getSub]
        congr 1
        funext t'
        exact run_entryLoop p v xid i t fuel t'

theorem run_entry (p : Policy) (v : Volume) (xid i t : Nat) : (entry v xid i t).run p = NodeCache.entry p v xid i t := by
  unfold entry NodeCache.entry
  rw [run_bind, run_getRoot]
  congr 1
  funext r
  cases r with
  | none => rfl
  | some s =>
    dsimp only
    rw [run_bind, run_entryLoop]
    congr 1
    funext e
    match e with
    | none => rfl
    | some (t', e) =>
      dsimp only
      rw [run_use]
      rfl

theorem run_enumBranch {α : Type} (p : Policy) (k : Kind α) {visit : Bytes → Proc (List α)} {cvisit : Bytes → CM (List α)} (hv : ∀ b, (visit b).run p = cvisit b) (s : Slot) (i : Nat) :
    ∀ es previous, (enumBranch k visit s i es previous).run p = NodeCache.enumBranch k cvisit s i es previous
  | [], none => rfl
  | [], some q => by
    rw [enumBranch, NodeCache.enumBranch, run_use]
    congr 1
    funext _
    exact hv _
  | e :: es, previous => by
    rw [enumBranch.eq_def, NodeCache.enumBranch.eq_def]
    dsimp only
    rw [run_use]
    congr 1
    funext _
    rw [run_bind, run_ret]
    congr 1
    funext _
    rw [run_bind, run_ret]
    congr 1
    funext key
    split
    · cases previous with
      | none => rfl
      | some q => exact hv _
    · rw [run_bind, run_ret]
      congr 1
      funext low
      rw [run_bind]
      congr 1
      · match low, previous with
        | true, some q => exact hv _
        | true, none => rfl
        | false, _ => rfl
      · funext xs
        rw [run_bind, run_enumBranch p k hv s i es (some e)]
        rfl

theorem run_enumNode {α : Type} (p : Policy) (k : Kind α) (v : Volume) (xid i : Nat) : ∀ fuel s, (enumNode k v xid i fuel s).run p = NodeCache.enumNode k p v xid i fuel s
  | 0, s => by
    rw [enumNode, NodeCache.enumNode, run_use]
    congr 1
    funext _
    split <;> rfl
  | fuel + 1, s => by
    rw [enumNode, NodeCache.enumNode, run_use]
    congr 1
    funext _
    split
    · rfl
    · refine run_enumBranch p k (fun b => ?_) s i _ _
      rw [run_bind, run_ret]
      congr 1
      funext block
      rw [run_bind, run_getSub]
      congr 1
      funext t
      exact run_enumNode p k v xid i fuel t

theorem run_enumerate {α : Type} (p : Policy) (k : Kind α) (v : Volume) (xid i : Nat) : (enumerate k v xid i).run p = NodeCache.enumerate k p v xid i := by
  unfold enumerate NodeCache.enumerate
  rw [run_bind, run_getRoot]
  congr 1
  funext r
  cases r with
  | none => rfl
  | some s => exact run_enumNode p k v xid i _ _

/-! one after the other -/

theorem serial_append {α : Type} (p : Policy) : ∀ (l m : List (Call α)) (c : Cache), serial p (l ++ m) c = ((serial p l c).1 ++ (serial p m (serial p l c).2).1, (serial p m (serial p l c).2).2)
  | [], _, _ => rfl
  | a :: l, m, c => by
    rw [List.cons_append, serial, serial, serial_append p l m]
    rfl

theorem length_serial {α : Type} (p : Policy) : ∀ (l : List (Call α)) (c : Cache), (serial p l c).1.length = l.length
  | [], _ => rfl
  | a :: l, c => by
    rw [serial, List.length_cons, List.length_cons, length_serial p l]

theorem part_append {β : Type} (i : Nat) (l m : List (Nat × β)) : part i (l ++ m) = part i l ++ part i m := by
  unfold part
  rw [List.filter_append, List.map_append]

theorem part_single {β : Type} (i j : Nat) (b : β) : part i [(j, b)] = if i = j then [b] else [] := by
  unfold part
  by_cases h : i = j
  · simp [h]
  · simp [h, Ne.symm h]

/-! calls that take one lock for writing -/

/-- the call does not use the tree -/
def Quiet {α : Type} (c : Call α) : Prop := ∃ r, c.body = .ret r

/-- all calls that use the tree take the lock of the handle `h` for writing -/
def Guarded {α : Type} (h : Nat) (work : Nat → List (Call α)) : Prop := ∀ i c, c ∈ work i → Quiet c ∨ (c.handle = h ∧ c.write = true)

/-- `D` are the calls that returned, in this order, and `orig i` is the call in which the thread `i` is -/
structure Inv {α : Type} (p : Policy) (h : Nat) (c0 : Cache) (work : Nat → List (Call α)) (s : System α) (D : List (Nat × Call α)) (orig : Nat → Option (Call α)) : Prop where
  parts : ∀ i, part i D ++ (orig i).toList ++ (s.threads i).todo = work i
  idle : ∀ i, (s.threads i).current = none → orig i = none
  busy : ∀ i a, (s.threads i).current = some a → ∃ o, orig i = some o ∧ a.handle = o.handle ∧ a.write = o.write ∧ (Quiet o → a.body = o.body)
  one : ∀ i j a b, orig i = some a → orig j = some b → ¬ Quiet a → ¬ Quiet b → i = j
  loud : ∀ i a o, (s.threads i).current = some a → orig i = some o → ¬ Quiet o → a.body.run p s.cache = o.body.run p (serial p (D.map (·.2)) c0).2
  rest : (∀ i o, orig i = some o → Quiet o) → s.cache = (serial p (D.map (·.2)) c0).2
  results : ∀ i, (s.threads i).results = part i ((D.map (·.1)).zip (serial p (D.map (·.2)) c0).1)

theorem Inv.start {α : Type} (p : Policy) (h : Nat) (c0 : Cache) (work : Nat → List (Call α)) : Inv p h c0 work (start c0 work) [] (fun _ => none) where
  parts _ := rfl
  idle _ _ := rfl
  busy _ _ ha := by cases ha
  one _ _ _ _ ha := by cases ha
  loud _ _ _ ha := by cases ha
  rest _ := rfl
  results _ := rfl

theorem set_same {α : Type} (s : System α) (i : Nat) (t : Thread α) : (s.set i t).threads i = t := if_pos rfl
theorem set_other {α : Type} (s : System α) {i j : Nat} (t : Thread α) (h : j ≠ i) : (s.set i t).threads j = s.threads j := if_neg h

theorem Inv.step {α : Type} {p : Policy} {h : Nat} {c0 : Cache} {work : Nat → List (Call α)} (hg : Guarded h work) {s u : System α} {D : List (Nat × Call α)} {orig : Nat → Option (Call α)}
    (hs : Inv p h c0 work s D orig) {i : Nat} (st : Step p s i u) : ∃ E orig', Inv p h c0 work u (D ++ E) orig' := by
  have guard : ∀ j o, orig j = some o → ¬ Quiet o → o.handle = h ∧ o.write = true := by
    intro j o ho hq
    have hm : o ∈ work j := by
      rw [← hs.parts j, ho]
      simp
    exact (hg j o hm).resolve_left hq
  cases st with
  | enter hn ht ha =>
    rename_i c cs
    have hmem : c ∈ work i := by
      rw [← hs.parts i, ht]
      simp
    have free : ¬ Quiet c → ∀ j o, j ≠ i → orig j = some o → Quiet o := by
      intro hc j o hj ho
      refine Classical.byContradiction fun hq => ?_
      obtain ⟨h1, h2⟩ := guard j o ho hq
      obtain ⟨h3, h4⟩ := (hg i c hmem).resolve_left hc
      cases hcur : (s.threads j).current with
      | none => rw [hs.idle j hcur] at ho; cases ho
      | some d =>
        obtain ⟨o', ho', h5, h6, _⟩ := hs.busy j d hcur
        rw [ho] at ho'
        cases ho'
        have := (ha j d hj hcur (by rw [h5, h1, h3])).1
        rw [h4] at this
        cases this
    refine ⟨[], fun j => if j = i then some c else orig j, ?_⟩
    rw [List.append_nil]
    refine ⟨?_, ?_, ?_, ?_, ?_, ?_, ?_⟩
    · intro j
      by_cases hj : j = i
      · subst hj
        rw [set_same, if_pos rfl, ← hs.parts j, hs.idle j hn, ht]
        simp
      · rw [set_other _ _ hj, if_neg hj]
        exact hs.parts j
    · intro j hc
      by_cases hj : j = i
      · subst hj
        rw [set_same] at hc
        cases hc
      · rw [set_other _ _ hj] at hc
        rw [if_neg hj]
        exact hs.idle j hc
    · intro j a hc
      by_cases hj : j = i
      · subst hj
        rw [set_same] at hc
        cases hc
        exact ⟨c, if_pos rfl, rfl, rfl, fun _ => rfl⟩
      · rw [set_other _ _ hj] at hc
        rw [if_neg hj]
        exact hs.busy j a hc
    · intro j k a b hja hkb hqa hqb
      by_cases hj : j = i
      · by_cases hk : k = i
        · rw [hj, hk]
        · rw [if_pos hj] at hja
          rw [if_neg hk] at hkb
          cases hja
          exact absurd (free hqa k b hk hkb) hqb
      · by_cases hk : k = i
        · rw [if_pos hk] at hkb
          rw [if_neg hj] at hja
          cases hkb
          exact absurd (free hqb j a hj hja) hqa
        · rw [if_neg hj] at hja
          rw [if_neg hk] at hkb
          exact hs.one j k a b hja hkb hqa hqb
    · intro j a o hc ho hq
      by_cases hj : j = i
      · subst hj
        rw [set_same] at hc
        rw [if_pos rfl] at ho
        cases hc
        cases ho
        show c.body.run p s.cache = _
        rw [hs.rest fun k o hk => by
          by_cases hkj : k = j
          · rw [hkj, hs.idle j hn] at hk
            cases hk
          · exact free hq k o hkj hk]
      · rw [set_other _ _ hj] at hc
        rw [if_neg hj] at ho
        exact hs.loud j a o hc ho hq
    · intro hq
      refine hs.rest fun j o ho => ?_
      by_cases hj : j = i
      · rw [hj, hs.idle i hn] at ho
        cases ho
      · exact hq j o (by rw [if_neg hj]; exact ho)
    · intro j
      by_cases hj : j = i
      · subst hj
        rw [set_same]
        exact hs.results j
      · rw [set_other _ _ hj]
        exact hs.results j
  | act hc =>
    rename_i c
    obtain ⟨o, ho, h1, h2, h3⟩ := hs.busy i c hc
    have keep : Quiet o → c.body.act p s.cache = (c.body, s.cache) := by
      intro hq
      obtain ⟨r, hr⟩ := hq
      rw [h3 ⟨r, hr⟩, hr]
      rfl
    refine ⟨[], orig, ?_⟩
    rw [List.append_nil]
    refine ⟨?_, ?_, ?_, hs.one, ?_, ?_, ?_⟩
    · intro j
      by_cases hj : j = i
      · subst hj
        rw [set_same]
        exact hs.parts j
      · rw [set_other _ _ hj]
        exact hs.parts j
    · intro j hn
      by_cases hj : j = i
      · subst hj
        rw [set_same] at hn
        cases hn
      · rw [set_other _ _ hj] at hn
        exact hs.idle j hn
    · intro j a ha
      by_cases hj : j = i
      · subst hj
        rw [set_same] at ha
        cases ha
        refine ⟨o, ho, h1, h2, fun hq => ?_⟩
        show (c.body.act p s.cache).1 = _
        rw [keep hq]
        exact h3 hq
      · rw [set_other _ _ hj] at ha
        exact hs.busy j a ha
    · intro j a o' ha ho' hq
      by_cases hj : j = i
      · subst hj
        rw [set_same] at ha
        cases ha
        show (c.body.act p s.cache).1.run p (c.body.act p s.cache).2 = _
        rw [run_act]
        exact hs.loud j c o' hc ho' hq
      · rw [set_other _ _ hj] at ha
        by_cases hqo : Quiet o
        · show a.body.run p (c.body.act p s.cache).2 = _
          rw [keep hqo]
          exact hs.loud j a o' ha ho' hq
        · exact absurd (hs.one j i o' o ho' ho hq hqo) hj
    · intro hq
      show (c.body.act p s.cache).2 = _
      rw [keep (hq i o ho)]
      exact hs.rest hq
    · intro j
      by_cases hj : j = i
      · subst hj
        rw [set_same]
        exact hs.results j
      · rw [set_other _ _ hj]
        exact hs.results j
  | leave hc hr =>
    rename_i c r
    obtain ⟨o, ho, h1, h2, h3⟩ := hs.busy i c hc
    have hrun : (o.body.run p (serial p (D.map (·.2)) c0).2).1 = r ∧ (Quiet o → (o.body.run p (serial p (D.map (·.2)) c0).2).2 = (serial p (D.map (·.2)) c0).2) ∧
        (¬ Quiet o → (o.body.run p (serial p (D.map (·.2)) c0).2).2 = s.cache) := by
      by_cases hq : Quiet o
      · rw [← h3 hq, hr]
        exact ⟨rfl, fun _ => rfl, fun h => absurd hq h⟩
      · rw [← hs.loud i c o hc ho hq, hr]
        exact ⟨rfl, fun h => absurd h hq, fun _ => rfl⟩
    have hser : serial p ((D ++ [(i, o)]).map (·.2)) c0 = ((serial p (D.map (·.2)) c0).1 ++ [r], (o.body.run p (serial p (D.map (·.2)) c0).2).2) := by
      rw [List.map_append, serial_append]
      show ((serial p (D.map (·.2)) c0).1 ++ [(o.body.run p (serial p (D.map (·.2)) c0).2).1], (o.body.run p (serial p (D.map (·.2)) c0).2).2) = _
      rw [hrun.1]
    refine ⟨[(i, o)], fun j => if j = i then none else orig j, ?_, ?_, ?_, ?_, ?_, ?_, ?_⟩
    · intro j
      rw [part_append, part_single]
      by_cases hj : j = i
      · subst hj
        rw [set_same, if_pos rfl, if_pos rfl, ← hs.parts j, ho]
        simp
      · rw [set_other _ _ hj, if_neg hj, if_neg hj, List.append_nil]
        exact hs.parts j
    · intro j hn
      by_cases hj : j = i
      · rw [if_pos hj]
      · rw [set_other _ _ hj] at hn
        rw [if_neg hj]
        exact hs.idle j hn
    · intro j a ha
      by_cases hj : j = i
      · subst hj
        rw [set_same] at ha
        cases ha
      · rw [set_other _ _ hj] at ha
        rw [if_neg hj]
        exact hs.busy j a ha
    · intro j k a b hja hkb
      by_cases hj : j = i
      · rw [if_pos hj] at hja
        cases hja
      · by_cases hk : k = i
        · rw [if_pos hk] at hkb
          cases hkb
        · rw [if_neg hj] at hja
          rw [if_neg hk] at hkb
          exact hs.one j k a b hja hkb
    · intro j a o' ha ho' hq
      by_cases hj : j = i
      · rw [if_pos hj] at ho'
        cases ho'
      · rw [set_other _ _ hj] at ha
        rw [if_neg hj] at ho'
        by_cases hqo : Quiet o
        · rw [hser]
          show a.body.run p s.cache = o'.body.run p (o.body.run p (serial p (D.map (·.2)) c0).2).2
          rw [hrun.2.1 hqo]
          exact hs.loud j a o' ha ho' hq
        · exact absurd (hs.one j i o' o ho' ho hq hqo) hj
    · intro hq
      rw [hser]
      show s.cache = (o.body.run p (serial p (D.map (·.2)) c0).2).2
      by_cases hqo : Quiet o
      · rw [hrun.2.1 hqo]
        refine hs.rest fun j o' ho' => ?_
        by_cases hj : j = i
        · rw [hj, ho] at ho'
          cases ho'
          exact hqo
        · exact hq j o' (by rw [if_neg hj]; exact ho')
      · rw [hrun.2.2 hqo]
    · intro j
      have hzip : (((D ++ [(i, o)]).map (·.1)).zip (serial p ((D ++ [(i, o)]).map (·.2)) c0).1) = (D.map (·.1)).zip (serial p (D.map (·.2)) c0).1 ++ [(i, r)] := by
        rw [hser, List.map_append]
        show (D.map (·.1) ++ [i]).zip ((serial p (D.map (·.2)) c0).1 ++ [r]) = _
        rw [List.zip_append (by rw [length_serial, List.length_map, List.length_map])]
        rfl
      rw [hzip, part_append, part_single]
      by_cases hj : j = i
      · subst hj
        rw [set_same, if_pos rfl]
        show (s.threads j).results ++ [r] = _
        rw [hs.results j]
      · rw [set_other _ _ hj, if_neg hj, List.append_nil]
        exact hs.results j

theorem Inv.steps {α : Type} {p : Policy} {h : Nat} {c0 : Cache} {work : Nat → List (Call α)} (hg : Guarded h work) {s u : System α} (st : Steps p s u) {D : List (Nat × Call α)}
    {orig : Nat → Option (Call α)} (hs : Inv p h c0 work s D orig) : ∃ E orig', Inv p h c0 work u (D ++ E) orig' := by
  induction st with
  | refl => exact ⟨[], orig, by rw [List.append_nil]; exact hs⟩
  | step _ hst ih =>
    obtain ⟨E, orig', hi⟩ := ih
    obtain ⟨F, orig'', hj⟩ := hi.step hg hst
    exact ⟨E ++ F, orig'', by rw [← List.append_assoc]; exact hj⟩

theorem step_enter {α : Type} (p : Policy) {s : System α} {i : Nat} {rs : List (Res α)} {c : Call α} {cs : List (Call α)} (h : s.threads i = ⟨rs, none, c :: cs⟩) (ha : s.admits i c) :
    ∃ u, Step p s i u ∧ u.cache = s.cache ∧ u.threads i = ⟨rs, some c, cs⟩ ∧ ∀ j, j ≠ i → u.threads j = s.threads j :=
  ⟨_, .enter (by rw [h]) (by rw [h]) ha, rfl, by rw [set_same, h], fun _ hj => set_other _ _ hj⟩

theorem step_act {α : Type} (p : Policy) {s : System α} {i : Nat} {rs : List (Res α)} {c : Call α} {cs : List (Call α)} (h : s.threads i = ⟨rs, some c, cs⟩) :
    ∃ u, Step p s i u ∧ u.cache = (c.body.act p s.cache).2 ∧ u.threads i = ⟨rs, some { c with body := (c.body.act p s.cache).1 }, cs⟩ ∧ ∀ j, j ≠ i → u.threads j = s.threads j :=
  ⟨_, .act (by rw [h]), rfl, by rw [set_same, h], fun _ hj => set_other _ _ hj⟩

theorem step_leave {α : Type} (p : Policy) {s : System α} {i : Nat} {rs : List (Res α)} {c : Call α} {r : Res α} {cs : List (Call α)} (h : s.threads i = ⟨rs, some c, cs⟩) (hr : c.body = .ret r) :
    ∃ u, Step p s i u ∧ u.cache = s.cache ∧ u.threads i = ⟨rs ++ [r], none, cs⟩ ∧ ∀ j, j ≠ i → u.threads j = s.threads j :=
  ⟨_, .leave (by rw [h]) hr, rfl, by rw [set_same, h], fun _ hj => set_other _ _ hj⟩

theorem part_cons {β : Type} (i j : Nat) (b : β) (l : List (Nat × β)) : part i ((j, b) :: l) = if i = j then b :: part i l else part i l := by
  unfold part
  by_cases h : i = j
  · simp [h]
  · simp [h, Ne.symm h]

/-- each result of a serial execution is the result of the call with some cache that has a property kept by all calls -/
theorem result_of {α : Type} {p : Policy} {I : Cache → Prop} : ∀ (order : List (Nat × Call α)) (c : Cache), (∀ a ∈ order, ∀ c, I c → I (a.2.body.run p c).2) → I c →
    ∀ (i k : Nat) (b : Call α) (x : Res α), (part i order)[k]? = some b → (part i ((order.map (·.1)).zip (serial p (order.map (·.2)) c).1))[k]? = some x →
    ∃ c', I c' ∧ x = (b.body.run p c').1
  | [], _, _, _, _, _, _, _, hb, _ => by cases hb
  | (j, a) :: l, c, hk, hc, i, k, b, x, hb, hx => by
    have ih := result_of l (a.body.run p c).2 (fun b hb => hk b (List.mem_cons_of_mem _ hb)) (hk (j, a) (List.mem_cons_self ..) c hc) i
    rw [part_cons] at hb
    rw [List.map_cons, List.map_cons, serial, List.zip_cons_cons, part_cons] at hx
    by_cases h : i = j
    · rw [if_pos h] at hb hx
      cases k with
      | zero =>
        simp only [List.getElem?_cons_zero, Option.some.injEq] at hb hx
        exact ⟨c, hc, by rw [← hb, ← hx]⟩
      | succ k =>
        simp only [List.getElem?_cons_succ] at hb hx
        exact ih k b x hb hx
    · rw [if_neg h] at hb hx
      exact ih k b x hb hx

theorem length_part {β γ : Type} (i : Nat) : ∀ (order : List (Nat × β)) (l : List γ), l.length = order.length → (part i ((order.map (·.1)).zip l)).length = (part i order).length
  | [], _, _ => by rfl
  | (j, a) :: o, [], h => by cases h
  | (j, a) :: o, x :: l, h => by
    have ih := length_part i o l (by simpa using h)
    rw [List.map_cons, List.zip_cons_cons, part_cons, part_cons]
    by_cases hj : i = j
    · rw [if_pos hj, if_pos hj, List.length_cons, List.length_cons, ih]
    · rw [if_neg hj, if_neg hj, ih]

end Threads
end Verif
