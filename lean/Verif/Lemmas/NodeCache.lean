import Verif.Model.NodeCache
import Verif.Spec.NodeCache
import Verif.Lemmas.Walk
import Verif.Lemmas.FsTree
/-!
# Lemmas about the node cache
-/
namespace Verif
open Res Spec
namespace NodeCache
open BTree FsTree

/-! computations with the cache -/

theorem bind_def {α β : Type} (m : CM α) (f : α → CM β) (c : Cache) : (m >>= f) c =
    match m c with
    | (.ok a, c') => f a c'
    | (.err, c') => (.err, c')
    | (.ub, c') => (.ub, c') := rfl

theorem pure_def {α : Type} (a : α) (c : Cache) : (pure a : CM α) c = (ok a, c) := rfl

theorem pureRes_ok {α β : Type} (a : α) (f : α → CM β) : (pureRes (ok a) >>= f) = f a := rfl

theorem bind_ok {α β : Type} {m : CM α} {f : α → CM β} {c c' : Cache} {a : α} (h : m c = (ok a, c')) : (m >>= f) c = f a c' := by
  rw [bind_def, h]

theorem bind_err {α β : Type} {m : CM α} {f : α → CM β} {c c' : Cache} (h : m c = (err, c')) : (m >>= f) c = (err, c') := by
  rw [bind_def, h]

theorem bind_ub {α β : Type} {m : CM α} {f : α → CM β} {c c' : Cache} (h : m c = (ub, c')) : (m >>= f) c = (ub, c') := by
  rw [bind_def, h]

/-- with the nodes in `R` in use, a computation is safe, gives the result `r` if `r` is a success, and keeps the nodes in use -/
def Runs {α : Type} (G : Cache → List Slot → Prop) (R : List Slot) (m : CM α) (r : Res α) : Prop :=
  ∀ c, G c R → (m c).1 ≠ ub ∧ (∀ a, r = ok a → (m c).1 = ok a) ∧ G (m c).2 R

variable {G : Cache → List Slot → Prop}

theorem Runs.bind {α β : Type} {R : List Slot} {m : CM α} {r : Res α} {f : α → CM β} {g : α → Res β} (hm : Runs G R m r)
    (hf : ∀ a, Runs G R (f a) (g a)) : Runs G R (m >>= f) (r >>= g) := by
  intro c hc
  obtain ⟨h1, h2, h3⟩ := hm c hc
  rw [bind_def]
  generalize hx : m c = x at h1 h2 h3
  obtain ⟨x, c'⟩ := x
  cases x with
  | ub => exact absurd rfl h1
  | err =>
    refine ⟨by simp, fun b hb => ?_, h3⟩
    obtain ⟨a, ha, _⟩ := bind_eq_ok.1 hb
    exact absurd (h2 a ha) (by simp)
  | ok a =>
    obtain ⟨f1, f2, f3⟩ := hf a c' h3
    refine ⟨f1, fun b hb => ?_, f3⟩
    obtain ⟨a', ha, hb⟩ := bind_eq_ok.1 hb
    cases Res.ok.inj (h2 a' ha)
    exact f2 b hb

theorem Runs.pureRes {α : Type} {R : List Slot} {r : Res α} (h : Safe r) : Runs G R (pureRes r) r := fun _ hc => ⟨h, fun _ h => h, hc⟩

theorem Runs.pure {α : Type} {R : List Slot} (a : α) : Runs G R (Pure.pure a) (ok a) := fun _ hc => ⟨by simp [pure_def], fun _ h => h, hc⟩

theorem Runs.err {α : Type} {R : List Slot} : Runs G R (NodeCache.pureRes err : CM α) err := Runs.pureRes safe_err

/-- the same for a use of a node, that does not change the result -/
theorem Runs.deref {α : Type} {R : List Slot} {s : Slot} {f : CM α} {r : Res α} (hs : ∀ c, G c R → s ∈ c.slots) (hf : Runs G R f r) :
    Runs G R (NodeCache.deref s >>= fun _ => f) r := by
  intro c hc
  have : NodeCache.deref s c = (ok (), c) := by
    unfold NodeCache.deref
    rw [if_pos]
    rw [List.any_eq_true]
    exact ⟨s, hs c hc, by simp⟩
  rw [bind_ok this]
  exact hf c hc

/-! blocks and nodes -/

theorem fsSub_eq (v : Volume) (xid : Nat) (value : Bytes) : fsSub v xid value = (blockOf v xid value >>= fun b => fsSubNode v b) := by
  unfold fsSub blockOf
  cases require (value.length = 8) with
  | err => rfl
  | ub => rfl
  | ok _ =>
    simp only [ok_bind]
    cases rdLE value 0 8 with
    | err => rfl
    | ub => rfl
    | ok oid =>
      simp only [ok_bind]
      cases omDescriptor v.omFetch v.omRoot oid xid with
      | err => rfl
      | ub => rfl
      | ok r => cases r <;> rfl

theorem safe_blockOf {v : Volume} (hv : SafeVolume v) (xid : Nat) (value : Bytes) : Safe (blockOf v xid value) := by
  unfold blockOf
  refine safe_bind safe_require fun _ h1 => ?_
  have := (require_eq_ok _).1 h1
  refine safe_bind (safe_rdLE (by omega)) fun _ _ => safe_bind (safe_omDescriptor hv.om _ _ _) fun r _ => ?_
  split
  · exact safe_err
  · exact safe_ok _

/-- the node read from a block by one of the two functions -/
def Came (v : Volume) (b : Nat) (n : Node) : Prop := loadRoot v b = ok (some n) ∨ loadSub v b = ok (some n)

theorem loadSub_inv {v : Volume} {b : Nat} {n : Node} (h : loadSub v b = ok (some n)) : fsSubNode v b = ok n := by
  unfold loadSub at h
  obtain ⟨m, hm, h⟩ := bind_eq_ok.1 h
  cases Res.ok.inj h
  exact hm

theorem fsSubNode_node {v : Volume} {b : Nat} {n : Node} (h : fsSubNode v b = ok n) : ¬ b > 2 ^ 31 - 1 ∧ (∃ d, v.fsFetch b = ok d ∧ readNode d = ok n) ∧ n.objectType ≠ 0 := by
  unfold fsSubNode at h
  obtain ⟨_, h0, h⟩ := bind_eq_ok.1 h
  obtain ⟨d, h1, h⟩ := bind_eq_ok.1 h
  obtain ⟨m, h2, h⟩ := bind_eq_ok.1 h
  obtain ⟨_, h3, h⟩ := bind_eq_ok.1 h
  obtain ⟨_, h4, h⟩ := bind_eq_ok.1 h
  obtain ⟨_, h5, h⟩ := bind_eq_ok.1 h
  cases Res.ok.inj h
  have h3 := (require_eq_ok _).1 h3
  exact ⟨(require_eq_ok _).1 h0, ⟨d, h1, h2⟩, by omega⟩

theorem fsRootNode_node {v : Volume} {r : Option Node} (h : fsRootNode v = ok r) :
    ¬ v.fsRoot > 2 ^ 31 - 1 ∧ ∃ d m, v.fsFetch v.fsRoot = ok d ∧ readNode d = ok m ∧ ((r = none ∧ m.objectType = 0) ∨ (r = some m ∧ m.objectType ≠ 0)) := by
  unfold fsRootNode at h
  obtain ⟨_, h0, h⟩ := bind_eq_ok.1 h
  obtain ⟨d, h1, h⟩ := bind_eq_ok.1 h
  obtain ⟨m, h2, h⟩ := bind_eq_ok.1 h
  refine ⟨(require_eq_ok _).1 h0, d, m, h1, h2, ?_⟩
  split at h
  · next h3 =>
    cases Res.ok.inj h
    exact .inl ⟨rfl, h3⟩
  · next h3 =>
    obtain ⟨_, _, h⟩ := bind_eq_ok.1 h
    obtain ⟨_, _, h⟩ := bind_eq_ok.1 h
    obtain ⟨_, _, h⟩ := bind_eq_ok.1 h
    split at h
    · cases h
    · obtain ⟨_, _, h⟩ := bind_eq_ok.1 h
      obtain ⟨_, _, h⟩ := bind_eq_ok.1 h
      obtain ⟨_, _, h⟩ := bind_eq_ok.1 h
      cases Res.ok.inj h
      exact .inr ⟨rfl, h3⟩

theorem came_node {v : Volume} {b : Nat} {n : Node} (h : Came v b n) : (∃ d, v.fsFetch b = ok d ∧ readNode d = ok n) ∧ n.objectType ≠ 0 := by
  rcases h with h | h
  · obtain ⟨_, d, m, h1, h2, h3⟩ := fsRootNode_node h
    rcases h3 with ⟨h3, _⟩ | ⟨h3, h4⟩
    · cases h3
    · cases h3
      exact ⟨⟨d, h1, h2⟩, h4⟩
  · obtain ⟨_, h1, h2⟩ := fsSubNode_node (loadSub_inv h)
    exact ⟨h1, h2⟩

/-- whatever function read it, the node of a block is the same -/
theorem came_eq {v : Volume} {b : Nat} {m n : Node} (hm : Came v b m) (hn : Came v b n) : m = n := by
  obtain ⟨⟨d, h1, h2⟩, _⟩ := came_node hm
  obtain ⟨⟨e, h3, h4⟩, _⟩ := came_node hn
  rw [h1] at h3
  cases Res.ok.inj h3
  rw [h2] at h4
  exact Res.ok.inj h4

theorem came_root {v : Volume} {b : Nat} {n : Node} (h : loadRoot v b = ok none) : ¬ Came v b n := by
  intro hn
  obtain ⟨⟨e, h3, h4⟩, h5⟩ := came_node hn
  obtain ⟨_, d, m, h1, h2, h6⟩ := fsRootNode_node h
  change v.fsFetch b = ok d at h1
  rw [h1] at h3
  cases Res.ok.inj h3
  rw [h2] at h4
  cases Res.ok.inj h4
  rcases h6 with ⟨_, h6⟩ | ⟨h6, _⟩
  · exact h5 h6
  · cases h6

/-- one of the two functions -/
inductive Load (v : Volume) : (Nat → Res (Option Node)) → Prop
  | root : Load v (loadRoot v)
  | sub : Load v (loadSub v)

theorem Load.safe {v : Volume} (hv : SafeVolume v) {load : Nat → Res (Option Node)} (h : Load v load) (b : Nat) : Safe (load b) := by
  cases h with
  | root => exact safe_fsRootNode (v := { v with fsRoot := b }) ⟨hv.om, hv.fs⟩
  | sub =>
    unfold loadSub
    refine safe_bind ?_ fun _ _ => safe_ok _
    unfold fsSubNode
    exact safe_bind safe_require fun _ _ => safe_bind (hv.fs _) fun d _ => safe_bind (readNode_spec d).1 fun _ _ => safe_bind safe_require fun _ _ =>
      safe_bind safe_require fun _ _ => safe_bind safe_require fun _ _ => safe_ok _

theorem Load.came {v : Volume} {load : Nat → Res (Option Node)} (h : Load v load) {b : Nat} {n : Node} (hn : load b = ok (some n)) : Came v b n := by
  cases h with
  | root => exact .inl hn
  | sub => exact .inr hn

theorem Load.none {v : Volume} {load : Nat → Res (Option Node)} (h : Load v load) {b : Nat} (hn : load b = ok none) {n : Node} : ¬ Came v b n := by
  cases h with
  | root => exact came_root hn
  | sub =>
    unfold loadSub at hn
    obtain ⟨_, _, h⟩ := bind_eq_ok.1 hn
    cases Res.ok.inj h

theorem Load.small {v : Volume} {load : Nat → Res (Option Node)} (h : Load v load) {b : Nat} {r : Option Node} (hn : load b = ok r) : ¬ b > 2 ^ 31 - 1 := by
  cases h with
  | root => exact (fsRootNode_node hn).1
  | sub =>
    unfold loadSub at hn
    obtain ⟨_, h, _⟩ := bind_eq_ok.1 hn
    exact (fsSubNode_node h).1

/-- what is kept of the cache: `G c R` tells that the nodes in `R` are in use and in the cache; `S` are the blocks that are read -/
structure Guard (p : Policy) (v : Volume) (S : Nat → Prop) (G : Cache → List Slot → Prop) : Prop where
  came : ∀ {c R s}, G c R → s ∈ c.slots → Came v s.block s.node
  hit : ∀ {c R s}, G c R → s ∈ c.slots → S s.block → G { c with slots := p.touch c.slots s } (s :: R)
  miss : ∀ {c R b n}, G c R → (∀ s ∈ c.slots, s.block ≠ b) → Came v b n → S b →
    G { slots := room p c.slots b ++ [⟨b, c.next, n⟩], next := c.next + 1 } (⟨b, c.next, n⟩ :: R)

/-- the nodes in use stay in the cache -/
structure Holds (p : Policy) (v : Volume) (S : Nat → Prop) (G : Cache → List Slot → Prop) : Prop extends Guard p v S G where
  held : ∀ {c R s}, G c R → s ∈ R → s ∈ c.slots
  fewer : ∀ {c R R'}, G c R → (∀ s ∈ R', s ∈ R) → G c R'

theorem Guard.get {p : Policy} {v : Volume} {S : Nat → Prop} (hg : Guard p v S G) (hv : SafeVolume v) {load : Nat → Res (Option Node)} (hl : Load v load) {b : Nat} (hb : S b)
    {R : List Slot} {c : Cache} (hc : G c R) :
    ((get p load b c).1 = err ∧ G (get p load b c).2 R ∧ ∀ r, load b ≠ ok r) ∨
    ((get p load b c).1 = ok none ∧ G (get p load b c).2 R ∧ load b = ok none) ∨
    (∃ s, (get p load b c).1 = ok (some s) ∧ s.block = b ∧ Came v b s.node ∧ G (get p load b c).2 (s :: R) ∧ ∀ r, load b = ok r → r = some s.node) := by
  unfold NodeCache.get
  split
  · next h => exact .inl ⟨rfl, hc, fun r hr => hl.small hr h⟩
  · split
    · next s hs =>
      have hm := List.mem_of_find?_eq_some hs
      have hb' : s.block = b := by simpa using List.find?_some hs
      have hcame := hg.came hc hm
      rw [hb'] at hcame
      refine .inr (.inr ⟨s, rfl, hb', hcame, hg.hit hc hm (hb' ▸ hb), fun r hr => ?_⟩)
      cases r with
      | none => exact absurd hcame (hl.none hr)
      | some m => rw [came_eq (hl.came hr) hcame]
    · next hs =>
      have hs : ∀ s ∈ c.slots, s.block ≠ b := by simpa using List.find?_eq_none.1 hs
      have hsafe := hl.safe hv b
      cases hr : load b with
      | ub => exact absurd hr hsafe
      | err => exact .inl ⟨rfl, hc, by simp⟩
      | ok r =>
        cases r with
        | none => exact .inr (.inl ⟨rfl, hc, rfl⟩)
        | some n =>
          refine .inr (.inr ⟨_, rfl, rfl, hl.came hr, hg.miss hc hs (hl.came hr) hb, fun r hr => ?_⟩)
          exact (Res.ok.inj hr).symm

/-- the blocks that are read: closed under the children that can hold records -/
def Closed (v : Volume) (xid identifier type : Nat) (S : Nat → Prop) : Prop :=
  ∀ b n value b', S b → Came v b n → n.leaf = false → MayHold identifier type n.entries value → blockOf v xid value = ok b' → S b'

theorem fsOver_iff {i t : Nat} {key : Bytes} : (field key 0 8 % 2 ^ 60 > i ∨ (field key 0 8 % 2 ^ 60 = i ∧ field key 0 8 / 2 ^ 60 > t)) ↔ fsOver i t key := Iff.rfl

theorem enumBranch_runs {α : Type} {k : Kind α} (hk : SafeKind k) {i : Nat} {R : List Slot} {s : Slot} (hs : ∀ c, G c R → s ∈ c.slots)
    {visit : Bytes → CM (List α)} {pvisit : Bytes → Res (List α)} {entries : List Entry}
    (hv : ∀ value, MayHold i k.dataType entries value → Runs G R (visit value) (pvisit value)) :
    ∀ (es : List Entry) (previous : Option Entry) (pre : List Entry), entries = pre ++ (previous.toList ++ es) →
      (∀ q ∈ previous, ¬ fsOver i k.dataType q.1) → Runs G R (enumBranch k visit s i es previous) (FsTree.enumBranch k pvisit i es previous) := by
  intro es
  induction es with
  | nil =>
    intro previous pre he hp
    cases previous with
    | none => exact Runs.err
    | some q =>
      unfold enumBranch FsTree.enumBranch
      refine Runs.deref hs (hv _ ⟨pre, q, [], by simpa using he, rfl, hp q rfl, by simp⟩)
  | cons e es ih =>
    intro previous pre he hp
    unfold enumBranch FsTree.enumBranch
    refine Runs.deref hs ?_
    by_cases h8 : e.1.length < 8
    · rw [require_false (by simpa using h8)]
      intro c hc
      exact ⟨by simp [bind_def, pureRes], by simp, hc⟩
    · rw [require_true h8, rdLE_field (by omega)]
      rw [pureRes_ok, pureRes_ok, ok_bind, ok_bind]
      by_cases hov : field e.1 0 8 % 2 ^ 60 > i ∨ (field e.1 0 8 % 2 ^ 60 = i ∧ field e.1 0 8 / 2 ^ 60 > k.dataType)
      · rw [if_pos hov, if_pos hov]
        cases previous with
        | none => exact Runs.err
        | some q => exact hv _ ⟨pre, q, e :: es, by simpa using he, rfl, hp q rfl, by rintro n ⟨⟩; exact .inl hov⟩
      · rw [if_neg hov, if_neg hov]
        have hrest : Runs G R (enumBranch k visit s i es (some e)) (FsTree.enumBranch k pvisit i es (some e)) :=
          ih (some e) (pre ++ previous.toList) (by simp [he]) (by rintro q ⟨⟩; exact hov)
        by_cases hex : field e.1 0 8 % 2 ^ 60 = i ∧ field e.1 0 8 / 2 ^ 60 = k.dataType
        · rw [if_pos hex]
          refine Runs.bind (Runs.pureRes (hk.before _)) fun low => Runs.bind ?_ fun xs => Runs.bind hrest fun ys => Runs.pure _
          cases low with
          | false => exact Runs.pure _
          | true =>
            cases previous with
            | none => exact Runs.pure _
            | some q => exact hv _ ⟨pre, q, e :: es, by simpa using he, rfl, hp q rfl, by rintro n ⟨⟩; exact .inr hex⟩
        · rw [if_neg hex]
          have e1 : (pure false : Res Bool) = ok false := rfl
          rw [e1, pureRes_ok, ok_bind]
          exact Runs.bind (Runs.pure _) fun xs => Runs.bind hrest fun ys => Runs.pure _

theorem enumNode_runs {α : Type} {k : Kind α} (hk : SafeKind k) {p : Policy} {v : Volume} (hv : SafeVolume v) {xid i : Nat} {S : Nat → Prop} (hg : Holds p v S G)
    (hS : Closed v xid i k.dataType S) (fuel : Nat) : ∀ (s : Slot) (R : List Slot), s ∈ R → S s.block → Came v s.block s.node →
      Runs G R (enumNode k p v xid i fuel s) (FsTree.enumNode k (fsSub v xid) i fuel s.node) := by
  induction fuel with
  | zero =>
    intro s R hs _ _
    unfold enumNode FsTree.enumNode
    refine Runs.deref (fun c hc => hg.held hc hs) ?_
    split
    · exact Runs.pureRes (safe_enumLeaf hk _ _)
    · exact Runs.err
  | succ fuel ih =>
    intro s R hs hb hn
    unfold enumNode FsTree.enumNode
    refine Runs.deref (fun c hc => hg.held hc hs) ?_
    split
    · exact Runs.pureRes (safe_enumLeaf hk _ _)
    · next hleaf =>
      refine enumBranch_runs hk (entries := s.node.entries) (fun c hc => hg.held hc hs) (fun value hvalue => ?_) s.node.entries none [] (by simp) (by simp)
      rw [fsSub_eq]
      cases hbl : blockOf v xid value with
      | err => exact fun c hc => ⟨by simp [bind_def, pureRes], by simp, hc⟩
      | ub => exact absurd hbl (safe_blockOf hv xid value)
      | ok b =>
        rw [pureRes_ok, ok_bind]
        have hSb : S b := hS _ _ _ _ hb hn (by simpa using hleaf) hvalue hbl
        intro c hc
        rcases hg.get hv .sub hSb hc with ⟨h1, h2, h3⟩ | ⟨h1, h2, h3⟩ | ⟨t, h1, h2, h3, h4, h5⟩
        · have : getSub p v b c = (err, (get p (loadSub v) b c).2) := by
            unfold getSub
            exact bind_err (Prod.ext h1 rfl)
          rw [bind_err this]
          refine ⟨by simp, fun a ha => ?_, h2⟩
          obtain ⟨m, hm, _⟩ := bind_eq_ok.1 ha
          exact absurd (by unfold loadSub; rw [hm]; rfl) (h3 (some m))
        · exact absurd h3 (by unfold loadSub; cases fsSubNode v b <;> simp)
        · have : getSub p v b c = (ok t, (get p (loadSub v) b c).2) := by
            unfold getSub
            rw [bind_ok (Prod.ext h1 rfl)]
            rfl
          rw [bind_ok this]
          obtain ⟨r1, r2, r3⟩ := ih t (t :: R) (by simp) (h2 ▸ hSb) (h2 ▸ h3) _ h4
          refine ⟨r1, fun a ha => ?_, hg.fewer r3 fun s hs => by simp [hs]⟩
          obtain ⟨m, hm, ha⟩ := bind_eq_ok.1 ha
          have := h5 (some m) (by unfold loadSub; rw [hm]; rfl)
          cases this
          exact r2 a ha

theorem enumerate_runs {α : Type} {k : Kind α} (hk : SafeKind k) {p : Policy} {v : Volume} (hv : SafeVolume v) {xid i : Nat} {S : Nat → Prop} (hg : Holds p v S G)
    (hS : Closed v xid i k.dataType S) (hr : S v.fsRoot) : Runs G [] (enumerate k p v xid i) (FsTree.enumerate k v xid i) := by
  intro c hc
  unfold enumerate FsTree.enumerate
  rcases hg.get hv .root hr hc with ⟨h1, h2, h3⟩ | ⟨h1, h2, h3⟩ | ⟨t, h1, h2, h3, h4, h5⟩
  · have : getRoot p v c = (err, (get p (loadRoot v) v.fsRoot c).2) := Prod.ext h1 rfl
    rw [bind_err this]
    refine ⟨by simp, fun a ha => ?_, h2⟩
    obtain ⟨m, hm, _⟩ := bind_eq_ok.1 ha
    exact absurd hm (h3 m)
  · have : getRoot p v c = (ok none, (get p (loadRoot v) v.fsRoot c).2) := Prod.ext h1 rfl
    rw [bind_ok this]
    refine ⟨by simp [pure_def], fun a ha => ?_, h2⟩
    have h3 : fsRootNode v = ok none := h3
    rw [h3] at ha
    exact ha
  · have : getRoot p v c = (ok (some t), (get p (loadRoot v) v.fsRoot c).2) := Prod.ext h1 rfl
    rw [bind_ok this]
    obtain ⟨r1, r2, r3⟩ := enumNode_runs hk hv hg hS 257 t [t] (by simp) (h2 ▸ hr) (h2 ▸ h3) _ h4
    refine ⟨r1, fun a ha => ?_, hg.fewer r3 (by simp)⟩
    obtain ⟨m, hm, ha⟩ := bind_eq_ok.1 ha
    cases h5 m hm
    exact r2 a ha

/-! few blocks -/

theorem nodup_length_le {l : List Nat} : ∀ {bs : List Nat}, l.Nodup → (∀ x ∈ l, x ∈ bs) → l.length ≤ bs.length := by
  induction l with
  | nil => intro bs _ _; simp
  | cons x l ih =>
    intro bs hn hs
    rw [List.nodup_cons] at hn
    have h1 := ih (bs := bs.erase x) hn.2 fun y hy => by
      have hne : y ≠ x := fun h => hn.1 (h ▸ hy)
      rw [List.mem_erase_of_ne hne]
      exact hs y (by simp [hy])
    have h2 : x ∈ bs := hs x (by simp)
    have h3 := List.length_erase_of_mem h2
    have h4 := List.length_pos_of_mem h2
    rw [List.length_cons]
    omega

/-- values of the cache, of different blocks, and only these are kept when the order changes -/
def KeepsValues (p : Policy) : Prop := ∀ l s, (l.map (·.block)).Nodup → s ∈ l → (p.touch l s).Perm l

/-- values are replaced only when there are `capacity` of them -/
def ReplacesWhenFull (p : Policy) (capacity : Nat) : Prop := ∀ l b, l.length < capacity → p.evict l b = none

/-- the cache holds nodes of the volume, at most one for each block -/
structure Fits (v : Volume) (c : Cache) : Prop where
  came : ∀ s ∈ c.slots, Came v s.block s.node
  once : (c.slots.map (·.block)).Nodup

theorem came_fetch {v : Volume} {b : Nat} {n : Node} (h : Came v b n) : ∃ d, v.fsFetch b = ok d := by
  obtain ⟨⟨d, h, _⟩, _⟩ := came_node h
  exact ⟨d, h⟩

theorem few_holds {p : Policy} {capacity : Nat} (hp : KeepsValues p) (hf : ReplacesWhenFull p capacity) {v : Volume} {bs : List Nat} (hbs : ∀ b d, v.fsFetch b = ok d → b ∈ bs)
    (hl : bs.length ≤ capacity) : Holds p v (fun _ => True) (fun c R => Fits v c ∧ ∀ s ∈ R, s ∈ c.slots) where
  held h hs := h.2 _ hs
  fewer h hR := ⟨h.1, fun s hs => h.2 s (hR s hs)⟩
  came h hs := h.1.came _ hs
  hit := by
    intro c R s h hs _
    have hperm := hp c.slots s h.1.once hs
    refine ⟨⟨fun t ht => h.1.came t (hperm.mem_iff.1 ht), ?_⟩, fun t ht => ?_⟩
    · exact (hperm.map _).nodup_iff.2 h.1.once
    · rcases List.mem_cons.1 ht with rfl | ht
      · exact hperm.mem_iff.2 hs
      · exact hperm.mem_iff.2 (h.2 t ht)
  miss := by
    intro c R b n h hb hn _
    have hnew : (c.slots.map (·.block) ++ [b]).Nodup := by
      rw [List.nodup_append]
      refine ⟨h.1.once, by simp, fun x hx y hy => ?_⟩
      obtain ⟨s, hs, rfl⟩ := List.mem_map.1 hx
      rw [List.mem_singleton.1 hy]
      exact hb s hs
    have hlen := nodup_length_le hnew (bs := bs) fun x hx => by
      rcases List.mem_append.1 hx with hx | hx
      · obtain ⟨s, hs, rfl⟩ := List.mem_map.1 hx
        obtain ⟨d, hd⟩ := came_fetch (h.1.came s hs)
        exact hbs _ d hd
      · obtain ⟨d, hd⟩ := came_fetch hn
        rw [List.mem_singleton.1 hx]
        exact hbs _ d hd
    have hroom : room p c.slots b = c.slots := by
      unfold room
      rw [hf c.slots b (by simp only [List.length_append, List.length_map, List.length_singleton] at hlen; omega)]
    rw [hroom]
    refine ⟨⟨fun t ht => ?_, by simpa using hnew⟩, fun t ht => ?_⟩
    · rcases List.mem_append.1 ht with ht | ht
      · exact h.1.came t ht
      · rw [List.mem_singleton.1 ht]
        exact hn
    · rcases List.mem_cons.1 ht with rfl | ht
      · simp
      · exact List.mem_append_left _ (h.2 t ht)

/-- the least recently used value is replaced -/
def leastRecentlyUsed (capacity : Nat) : Policy where
  touch l s := l.filter (fun t => t.block ≠ s.block) ++ [s]
  evict l _ := if l.length < capacity then none else some 0

/-- the value set first is replaced -/
def firstIn (capacity : Nat) : Policy where
  touch l _ := l
  evict l _ := if l.length < capacity then none else some 0

theorem filter_ne_of_nodup {l : List Slot} {s : Slot} (h : (l.map (·.block)).Nodup) (hs : s ∈ l) : (l.filter (fun t => t.block ≠ s.block) ++ [s]).Perm l := by
  induction l with
  | nil => cases hs
  | cons x l ih =>
    rw [List.map_cons, List.nodup_cons] at h
    by_cases hx : x.block = s.block
    · have hxs : x = s := by
        rcases List.mem_cons.1 hs with rfl | hs
        · rfl
        · exact absurd (hx ▸ List.mem_map_of_mem hs) h.1
      subst hxs
      rw [List.filter_cons_of_neg (by simp)]
      have : l.filter (fun t => t.block ≠ x.block) = l := by
        rw [List.filter_eq_self]
        intro t ht
        have : t.block ≠ x.block := fun e => h.1 (e ▸ List.mem_map_of_mem ht)
        simpa using this
      rw [this]
      exact List.perm_append_singleton x l
    · rw [List.filter_cons_of_pos (by simpa using hx)]
      have hs : s ∈ l := by
        rcases List.mem_cons.1 hs with rfl | hs
        · exact absurd rfl hx
        · exact hs
      exact (ih h.2 hs).cons x

/-- if values are replaced in order of their last use, nodes read in one call stay in the cache while they are at most as many as the cache holds -/
theorem recent_holds {capacity : Nat} {v : Volume} {bs : List Nat} (hl : bs.length ≤ capacity) :
    Holds (leastRecentlyUsed capacity) v (fun b => b ∈ bs)
      (fun c R => Fits v c ∧ ∃ old recent, c.slots = old ++ recent ∧ (∀ s ∈ recent, s.block ∈ bs) ∧ ∀ s ∈ R, s ∈ recent) where
  held := by
    rintro c R s ⟨_, old, recent, h1, _, h3⟩ hs
    rw [h1]
    exact List.mem_append_right _ (h3 s hs)
  fewer := by
    rintro c R R' ⟨h, old, recent, h1, h2, h3⟩ hR
    exact ⟨h, old, recent, h1, h2, fun s hs => h3 s (hR s hs)⟩
  came h hs := h.1.came _ hs
  hit := by
    rintro c R s ⟨h, old, recent, h1, h2, h3⟩ hs hb
    have hperm := filter_ne_of_nodup h.once hs
    refine ⟨⟨fun t ht => h.came t (hperm.mem_iff.1 ht), (hperm.map _).nodup_iff.2 h.once⟩, old.filter (fun t => t.block ≠ s.block),
      recent.filter (fun t => t.block ≠ s.block) ++ [s], ?_, fun t ht => ?_, fun t ht => ?_⟩
    · show c.slots.filter _ ++ [s] = _
      rw [h1, List.filter_append, List.append_assoc]
    · rcases List.mem_append.1 ht with ht | ht
      · exact h2 t (List.mem_filter.1 ht).1
      · rw [List.mem_singleton.1 ht]
        exact hb
    · rcases List.mem_cons.1 ht with rfl | ht
      · simp
      · have ht := h3 t ht
        have htc : t ∈ c.slots := by rw [h1]; exact List.mem_append_right _ ht
        rcases List.mem_append.1 (hperm.mem_iff.2 htc) with hf | hf
        · exact List.mem_append_left _ (List.mem_filter.2 ⟨ht, (List.mem_filter.1 hf).2⟩)
        · exact List.mem_append_right _ hf
  miss := by
    rintro c R b n ⟨h, old, recent, h1, h2, h3⟩ hb hn hS
    have hnew : (c.slots.map (·.block) ++ [b]).Nodup := by
      rw [List.nodup_append]
      refine ⟨h.once, by simp, fun x hx y hy => ?_⟩
      obtain ⟨s, hs, rfl⟩ := List.mem_map.1 hx
      rw [List.mem_singleton.1 hy]
      exact hb s hs
    have hsub : ∃ old', room (leastRecentlyUsed capacity) c.slots b = old' ++ recent ∧ (room (leastRecentlyUsed capacity) c.slots b).Sublist c.slots := by
      unfold room leastRecentlyUsed
      by_cases hc : c.slots.length < capacity
      · simp only [hc, if_true]
        exact ⟨old, h1, List.Sublist.refl _⟩
      · simp only [hc, if_false]
        refine ⟨old.tail, ?_, List.eraseIdx_sublist _ _⟩
        cases old with
        | cons x old => rw [h1]; rfl
        | nil =>
          exfalso
          rw [h1, List.nil_append] at hnew hc
          have hlen := nodup_length_le hnew (bs := bs) fun x hx => by
            rcases List.mem_append.1 hx with hx | hx
            · obtain ⟨s, hs, rfl⟩ := List.mem_map.1 hx
              exact h2 s hs
            · rw [List.mem_singleton.1 hx]
              exact hS
          simp only [List.length_append, List.length_map, List.length_singleton] at hlen
          omega
    obtain ⟨old', h4, h5⟩ := hsub
    refine ⟨⟨fun t ht => ?_, ?_⟩, old', recent ++ [⟨b, c.next, n⟩], ?_, fun t ht => ?_, fun t ht => ?_⟩
    · rcases List.mem_append.1 ht with ht | ht
      · exact h.came t (h5.subset ht)
      · rw [List.mem_singleton.1 ht]
        exact hn
    · rw [List.map_append]
      exact hnew.sublist ((h5.map _).append (List.Sublist.refl _))
    · show _ ++ [_] = _
      rw [h4, List.append_assoc]
    · rcases List.mem_append.1 ht with ht | ht
      · exact h2 t ht
      · rw [List.mem_singleton.1 ht]
        exact hS
    · rcases List.mem_cons.1 ht with rfl | ht
      · simp
      · exact List.mem_append_left _ (h3 t ht)

/-! lookups -/

theorem fits_miss {p : Policy} {v : Volume} {c : Cache} {b : Nat} {n : Node} (h : Fits v c) (hb : ∀ s ∈ c.slots, s.block ≠ b) (hn : Came v b n) :
    Fits v { slots := room p c.slots b ++ [⟨b, c.next, n⟩], next := c.next + 1 } := by
  have hsub : (room p c.slots b).Sublist c.slots := by
    unfold room
    split
    · exact List.Sublist.refl _
    · exact List.eraseIdx_sublist _ _
  have hnew : (c.slots.map (·.block) ++ [b]).Nodup := by
    rw [List.nodup_append]
    refine ⟨h.once, by simp, fun x hx y hy => ?_⟩
    obtain ⟨s, hs, rfl⟩ := List.mem_map.1 hx
    rw [List.mem_singleton.1 hy]
    exact hb s hs
  refine ⟨fun t ht => ?_, ?_⟩
  · rcases List.mem_append.1 ht with ht | ht
    · exact h.came t (hsub.subset ht)
    · rw [List.mem_singleton.1 ht]
      exact hn
  · rw [List.map_append]
    exact hnew.sublist ((hsub.map _).append (List.Sublist.refl _))

/-- only the last node is in use -/
theorem last_guard {p : Policy} (hp : KeepsValues p) (v : Volume) :
    Guard p v (fun _ => True) (fun c R => Fits v c ∧ ∀ s ∈ R.head?, s ∈ c.slots) where
  came h hs := h.1.came _ hs
  hit := by
    rintro c R s ⟨h, _⟩ hs _
    have hperm := hp c.slots s h.once hs
    refine ⟨⟨fun t ht => h.came t (hperm.mem_iff.1 ht), (hperm.map _).nodup_iff.2 h.once⟩, ?_⟩
    rintro t ⟨⟩
    exact hperm.mem_iff.2 hs
  miss := by
    rintro c R b n ⟨h, _⟩ hb hn _
    refine ⟨fits_miss h hb hn, ?_⟩
    rintro t ⟨⟩
    simp

theorem deref_ok {s : Slot} {c : Cache} (h : s ∈ c.slots) : NodeCache.deref s c = (ok (), c) := by
  unfold NodeCache.deref
  rw [if_pos]
  rw [List.any_eq_true]
  exact ⟨s, h, by simp⟩

theorem entryLoop_runs {p : Policy} (hp : KeepsValues p) {v : Volume} (hv : SafeVolume v) (xid i t fuel : Nat) : ∀ (s : Slot) (c : Cache),
    Fits v c → s ∈ c.slots →
      Fits v (entryLoop p v xid i t fuel s c).2 ∧
      ((entryLoop p v xid i t fuel s c).1 = err ∧ (∀ r, fsEntryLoop (fsSub v xid) i t fuel s.node ≠ ok r) ∨
        (entryLoop p v xid i t fuel s c).1 = ok none ∧ (∀ r, fsEntryLoop (fsSub v xid) i t fuel s.node = ok r → r = none) ∨
        ∃ u e, (entryLoop p v xid i t fuel s c).1 = ok (some (u, e)) ∧ u ∈ (entryLoop p v xid i t fuel s c).2.slots ∧
          ∀ r, fsEntryLoop (fsSub v xid) i t fuel s.node = ok r → r = some e) := by
  induction fuel with
  | zero =>
    intro s c hc hs
    exact ⟨hc, .inl ⟨rfl, by simp [fsEntryLoop]⟩⟩
  | succ fuel ih =>
    intro s c hc hs
    unfold entryLoop fsEntryLoop
    rw [bind_ok (deref_ok hs)]
    cases hr : fsEntryFromNode s.node.leaf i t s.node.entries none with
    | ub => exact absurd hr (safe_fsEntryFromNode _ _ _ _ _)
    | err => exact ⟨hc, .inl ⟨rfl, by simp⟩⟩
    | ok r =>
      rw [pureRes_ok, ok_bind]
      cases r with
      | none => exact ⟨hc, .inr (.inl ⟨rfl, fun r h => (Res.ok.inj h).symm⟩)⟩
      | some r =>
        cases r with
        | none => exact ⟨hc, .inl ⟨rfl, by simp⟩⟩
        | some e =>
          dsimp only
          by_cases hleaf : s.node.leaf = true
          · rw [if_pos hleaf, if_pos hleaf]
            exact ⟨hc, .inr (.inr ⟨s, e, rfl, hs, fun r h => (Res.ok.inj h).symm⟩)⟩
          · rw [if_neg hleaf, if_neg hleaf, fsSub_eq]
            cases hbl : blockOf v xid e.2 with
            | err => exact ⟨hc, .inl ⟨rfl, by simp⟩⟩
            | ub => exact absurd hbl (safe_blockOf hv xid e.2)
            | ok b =>
              rw [pureRes_ok, ok_bind]
              rcases (last_guard hp v).get hv .sub (b := b) trivial (c := c) (R := []) ⟨hc, by simp⟩ with ⟨h1, h2, h3⟩ | ⟨h1, h2, h3⟩ | ⟨u, h1, h2, h3, h4, h5⟩
              · have : getSub p v b c = (err, (get p (loadSub v) b c).2) := by
                  unfold getSub
                  exact bind_err (Prod.ext h1 rfl)
                rw [bind_err this]
                refine ⟨h2.1, .inl ⟨rfl, fun r ha => ?_⟩⟩
                obtain ⟨m, hm, _⟩ := bind_eq_ok.1 ha
                exact absurd (by unfold loadSub; rw [hm]; rfl) (h3 (some m))
              · exact absurd h3 (by unfold loadSub; cases fsSubNode v b <;> simp)
              · have : getSub p v b c = (ok u, (get p (loadSub v) b c).2) := by
                  unfold getSub
                  rw [bind_ok (Prod.ext h1 rfl)]
                  rfl
                rw [bind_ok this]
                have hm : ∀ r, (fsSubNode v b >>= fun m => fsEntryLoop (fsSub v xid) i t fuel m) = ok r → fsEntryLoop (fsSub v xid) i t fuel u.node = ok r := by
                  intro r hr
                  obtain ⟨m, hm, hr⟩ := bind_eq_ok.1 hr
                  cases h5 (some m) (by unfold loadSub; rw [hm]; rfl)
                  exact hr
                obtain ⟨g1, g2⟩ := ih u _ h4.1 (h4.2 u rfl)
                refine ⟨g1, ?_⟩
                rcases g2 with ⟨g2, g3⟩ | ⟨g2, g3⟩ | ⟨w, e, g2, g3, g4⟩
                · exact .inl ⟨g2, fun r hr => g3 r (hm r hr)⟩
                · exact .inr (.inl ⟨g2, fun r hr => g3 r (hm r hr)⟩)
                · exact .inr (.inr ⟨w, e, g2, g3, fun r hr => g4 r (hm r hr)⟩)

theorem entry_runs {p : Policy} (hp : KeepsValues p) {v : Volume} (hv : SafeVolume v) (xid i t : Nat) (c : Cache)
    (hc : Fits v c) :
    (entry p v xid i t c).1 ≠ ub ∧ (∀ r, fsEntry v xid i t = ok r → (entry p v xid i t c).1 = ok r) ∧
      Fits v (entry p v xid i t c).2 := by
  unfold entry fsEntry
  rcases (last_guard hp v).get hv .root (b := v.fsRoot) trivial (c := c) (R := []) ⟨hc, by simp⟩ with ⟨h1, h2, h3⟩ | ⟨h1, h2, h3⟩ | ⟨u, h1, h2, h3, h4, h5⟩
  · have : getRoot p v c = (err, (get p (loadRoot v) v.fsRoot c).2) := Prod.ext h1 rfl
    rw [bind_err this]
    refine ⟨by simp, fun a ha => ?_, h2.1⟩
    obtain ⟨m, hm, _⟩ := bind_eq_ok.1 ha
    exact absurd hm (h3 m)
  · have : getRoot p v c = (ok none, (get p (loadRoot v) v.fsRoot c).2) := Prod.ext h1 rfl
    rw [bind_ok this]
    refine ⟨by simp [pure_def], fun a ha => ?_, h2.1⟩
    have h3 : fsRootNode v = ok none := h3
    rw [h3] at ha
    exact ha
  · have : getRoot p v c = (ok (some u), (get p (loadRoot v) v.fsRoot c).2) := Prod.ext h1 rfl
    rw [bind_ok this]
    dsimp only
    obtain ⟨g1, g2⟩ := entryLoop_runs hp hv xid i t 257 u _ h4.1 (h4.2 u rfl)
    have hm : ∀ r, (fsRootNode v >>= fun r => (match r with | none => pure none | some n => fsEntryLoop (fsSub v xid) i t 257 n)) = ok r →
        fsEntryLoop (fsSub v xid) i t 257 u.node = ok r := by
      intro r hr
      obtain ⟨m, hm, hr⟩ := bind_eq_ok.1 hr
      cases h5 m hm
      exact hr
    rcases g2 with ⟨g2, g3⟩ | ⟨g2, g3⟩ | ⟨w, e, g2, g3, g4⟩
    · rw [bind_err (Prod.ext g2 rfl)]
      exact ⟨by simp, fun r hr => absurd (hm r hr) (g3 r), g1⟩
    · rw [bind_ok (Prod.ext g2 rfl)]
      refine ⟨by simp [pure_def], fun r hr => ?_, g1⟩
      rw [g3 r (hm r hr)]
      rfl
    · rw [bind_ok (Prod.ext g2 rfl)]
      dsimp only
      rw [bind_ok (deref_ok g3)]
      refine ⟨by simp [pure_def], fun r hr => ?_, g1⟩
      rw [g4 r (hm r hr)]
      rfl

/-! nodes that are replaced -/

/-- the blocks that an enumeration below a node reads, in order, without the cache -/
def loads {α : Type} (k : Kind α) (v : Volume) (xid i : Nat) : Nat → Node → Res (List Nat)
  | 0, n => if n.leaf then (enumLeaf k i n.entries >>= fun _ => ok []) else err
  | fuel + 1, n =>
    if n.leaf then (enumLeaf k i n.entries >>= fun _ => ok [])
    else FsTree.enumBranch { dataType := k.dataType, decode := fun _ => ok 0, before := k.before } (fun value => do
      let b ← blockOf v xid value
      let m ← fsSubNode v b
      let l ← loads k v xid i fuel m
      return b :: l) i n.entries none

/-- values are replaced in the order in which they were set as long as there are no hits -/
def OldestFirst (p : Policy) (capacity : Nat) : Prop := ∀ l b, p.evict l b = if l.length < capacity then none else some 0

/-- the cache after misses only: the nodes read last, in order -/
structure Window (capacity : Nat) (seen : List Nat) (c : Cache) : Prop where
  stamps : c.slots.map (·.stamp) = List.range' (c.next - c.slots.length) c.slots.length
  len : c.slots.length ≤ capacity
  next : c.slots.length ≤ c.next
  seen : ∀ s ∈ c.slots, s.block ∈ seen

theorem Window.miss {capacity : Nat} (h0 : 0 < capacity) {p : Policy} (hp : OldestFirst p capacity) {seen : List Nat} {c : Cache} (h : Window capacity seen c) (b : Nat) (n : Node) :
    Window capacity (seen ++ [b]) { slots := room p c.slots b ++ [⟨b, c.next, n⟩], next := c.next + 1 } := by
  have h1 := h.stamps
  have h2 := h.len
  have h3 := h.next
  unfold room
  rw [hp]
  by_cases hc : c.slots.length < capacity
  · simp only [hc, if_true]
    refine ⟨?_, ?_, ?_, fun s hs => ?_⟩
    · simp only [List.map_append, List.map_cons, List.map_nil, List.length_append, List.length_singleton]
      rw [h1, List.range'_concat]
      congr 1
      · congr 1
        omega
      · congr 1
        omega
    · simp only [List.length_append, List.length_singleton]
      omega
    · simp only [List.length_append, List.length_singleton]
      omega
    · rcases List.mem_append.1 hs with hs | hs
      · exact List.mem_append_left _ (h.seen s hs)
      · rw [List.mem_singleton.1 hs]
        simp
  · simp only [hc, if_false]
    have hl : c.slots.length = capacity := by omega
    obtain ⟨x, l, hx⟩ : ∃ x l, c.slots = x :: l := by
      cases hs : c.slots with
      | nil => rw [hs] at hl; simp at hl; omega
      | cons x l => exact ⟨x, l, rfl⟩
    rw [hx] at h1 h2 h3 hl ⊢
    simp only [List.eraseIdx_zero, List.tail_cons, List.length_cons, List.map_cons, List.range'_succ, List.cons.injEq] at h1 h2 h3 hl ⊢
    refine ⟨?_, ?_, ?_, fun s hs => ?_⟩
    · simp only [List.map_append, List.map_cons, List.map_nil, List.length_append, List.length_singleton]
      rw [h1.2, List.range'_concat]
      congr 1
      · congr 1
        omega
      · congr 1
        omega
    · simp only [List.length_append, List.length_singleton]
      omega
    · simp only [List.length_append, List.length_singleton]
      omega
    · rcases List.mem_append.1 hs with hs | hs
      · exact List.mem_append_left _ (h.seen s (by rw [hx]; exact List.mem_cons_of_mem _ hs))
      · rw [List.mem_singleton.1 hs]
        simp

/-- a node behind the window was freed -/
theorem Window.freed {capacity : Nat} {seen : List Nat} {c : Cache} (h : Window capacity seen c) {s : Slot} (hs : s.stamp + capacity < c.next) : deref s c = (ub, c) := by
  unfold deref
  rw [if_neg]
  intro hany
  obtain ⟨t, ht, he⟩ := List.any_eq_true.1 hany
  have he : t.stamp = s.stamp := by simpa using he
  have hm : t.stamp ∈ c.slots.map (·.stamp) := List.mem_map_of_mem ht
  rw [h.stamps, List.mem_range'_1] at hm
  have := h.len
  omega

/-- a computation that reads the blocks `L`, none of them read before: it uses a freed node, or the nodes read last are in the cache -/
def Fresh {α : Type} (capacity : Nat) (m : CM α) (L : List Nat) : Prop :=
  ∀ c seen, Window capacity seen c → L.Nodup → (∀ b ∈ L, b ∉ seen) →
    (m c).1 = ub ∨ ((∃ a, (m c).1 = ok a) ∧ Window capacity (seen ++ L) (m c).2 ∧ (m c).2.next = c.next + L.length)

theorem Fresh.bind {α β : Type} {capacity : Nat} {m : CM α} {f : α → CM β} {A B : List Nat} (hm : Fresh capacity m A) (hf : ∀ a, Fresh capacity (f a) B) :
    Fresh capacity (m >>= f) (A ++ B) := by
  intro c seen hw hn hd
  rw [List.nodup_append] at hn
  obtain ⟨n1, n2, n3⟩ := hn
  rw [bind_def]
  rcases hm c seen hw n1 (fun b hb => hd b (List.mem_append_left _ hb)) with h | ⟨⟨a, h1⟩, h2, h3⟩
  · generalize m c = x at h
    obtain ⟨x, c'⟩ := x
    dsimp only at h
    subst h
    exact .inl rfl
  · generalize m c = x at h1 h2 h3
    obtain ⟨x, c'⟩ := x
    dsimp only at h1
    subst h1
    rcases hf a c' (seen ++ A) h2 n2 (fun b hb => by
      rw [List.mem_append]
      rintro (h | h)
      · exact hd b (List.mem_append_right _ hb) h
      · exact n3 b h b hb rfl) with h | ⟨h4, h5, h6⟩
    · exact .inl h
    · refine .inr ⟨h4, ?_, ?_⟩
      · rw [← List.append_assoc]
        exact h5
      · dsimp only at h3 h6 ⊢
        rw [h6, h3, List.length_append]
        omega

theorem Fresh.ok {α : Type} {capacity : Nat} (a : α) : Fresh capacity (pureRes (ok a)) [] := by
  intro c seen hw _ _
  exact .inr ⟨⟨a, rfl⟩, by simpa [pureRes] using hw, by simp [pureRes]⟩

theorem Fresh.pure {α : Type} {capacity : Nat} (a : α) : Fresh capacity (Pure.pure a : CM α) [] := Fresh.ok a

theorem Fresh.deref {α : Type} {capacity : Nat} {s : Slot} {f : CM α} {L : List Nat} (hf : Fresh capacity f L) : Fresh capacity (deref s >>= fun _ => f) L := by
  intro c seen hw hn hd
  by_cases h : c.slots.any (fun t => t.stamp = s.stamp) = true
  · have : NodeCache.deref s c = (Res.ok (), c) := by unfold NodeCache.deref; rw [if_pos h]
    rw [bind_ok this]
    exact hf c seen hw hn hd
  · have : NodeCache.deref s c = (ub, c) := by unfold NodeCache.deref; rw [if_neg h]
    rw [bind_ub this]
    exact .inl rfl

theorem enumBranch_fresh {α : Type} {capacity : Nat} {k : Kind α} {i : Nat} {s : Slot} {visit : Bytes → CM (List α)} {pvisit : Bytes → Res (List Nat)}
    (hv : ∀ value L, pvisit value = ok L → Fresh capacity (visit value) L) : ∀ (es : List Entry) (previous : Option Entry) (L : List Nat),
      FsTree.enumBranch { dataType := k.dataType, decode := fun _ => ok 0, before := k.before } pvisit i es previous = ok L → Fresh capacity (enumBranch k visit s i es previous) L := by
  intro es
  induction es with
  | nil =>
    intro previous L h
    cases previous with
    | none => cases h
    | some q =>
      unfold enumBranch
      exact Fresh.deref (hv _ _ h)
  | cons e es ih =>
    intro previous L h
    unfold FsTree.enumBranch at h
    unfold enumBranch
    obtain ⟨_, h1, h⟩ := bind_eq_ok.1 h
    obtain ⟨key, h2, h⟩ := bind_eq_ok.1 h
    refine Fresh.deref ?_
    rw [h1, h2, pureRes_ok, pureRes_ok]
    dsimp only at h
    by_cases hov : key % 2 ^ 60 > i ∨ (key % 2 ^ 60 = i ∧ key / 2 ^ 60 > k.dataType)
    · rw [if_pos hov] at h ⊢
      cases previous with
      | none => cases h
      | some q => exact hv _ _ h
    · rw [if_neg hov] at h ⊢
      obtain ⟨low, h3, h⟩ := bind_eq_ok.1 h
      obtain ⟨xs, h4, h⟩ := bind_eq_ok.1 h
      obtain ⟨ys, h5, h⟩ := bind_eq_ok.1 h
      cases Res.ok.inj h
      rw [h3, pureRes_ok]
      refine Fresh.bind ?_ fun _ => by
        rw [← List.append_nil ys]
        exact Fresh.bind (ih _ _ h5) fun _ => Fresh.pure _
      cases low with
      | false =>
        cases Res.ok.inj h4
        exact Fresh.pure _
      | true =>
        cases previous with
        | none =>
          cases Res.ok.inj h4
          exact Fresh.pure _
        | some q => exact hv _ _ h4

theorem getSub_fresh {α : Type} {capacity : Nat} (h0 : 0 < capacity) {p : Policy} (hp : OldestFirst p capacity) {v : Volume} {b : Nat} {m : Node} (hm : fsSubNode v b = ok m) {f : Slot → CM α} {L : List Nat}
    (hf : ∀ s : Slot, s.node = m → Fresh capacity (f s) L) : Fresh capacity (getSub p v b >>= f) (b :: L) := by
  intro c seen hw hn hd
  have hfind : c.slots.find? (fun t => t.block = b) = none := by
    rw [List.find?_eq_none]
    intro t ht hb
    exact hd b (by simp) ((by simpa using hb : t.block = b) ▸ hw.seen t ht)
  have hget : getSub p v b c = (ok ⟨b, c.next, m⟩, { slots := room p c.slots b ++ [⟨b, c.next, m⟩], next := c.next + 1 }) := by
    unfold getSub
    have : get p (loadSub v) b c = (ok (some ⟨b, c.next, m⟩), { slots := room p c.slots b ++ [⟨b, c.next, m⟩], next := c.next + 1 }) := by
      unfold get
      rw [if_neg (fsSubNode_node hm).1, hfind]
      have : loadSub v b = ok (some m) := by unfold loadSub; rw [hm]; rfl
      dsimp only
      rw [this]
    rw [bind_ok this]
    rfl
  rw [bind_ok hget]
  rw [List.nodup_cons] at hn
  rcases hf ⟨b, c.next, m⟩ rfl _ (seen ++ [b]) (hw.miss h0 hp b m) hn.2 (fun x hx => by
    rw [List.mem_append, List.mem_singleton]
    rintro (h | h)
    · exact hd x (List.mem_cons_of_mem _ hx) h
    · exact hn.1 (h ▸ hx)) with h | ⟨h1, h2, h3⟩
  · exact .inl h
  · refine .inr ⟨h1, ?_, ?_⟩
    · rw [show seen ++ b :: L = seen ++ [b] ++ L by simp]
      exact h2
    · rw [h3, List.length_cons]
      dsimp only
      omega

theorem enumNode_fresh {α : Type} {k : Kind α} {capacity : Nat} (h0 : 0 < capacity) {p : Policy} (hp : OldestFirst p capacity) {v : Volume} {xid i : Nat} (fuel : Nat) : ∀ (s : Slot) (L : List Nat),
    loads k v xid i fuel s.node = ok L → Fresh capacity (enumNode k p v xid i fuel s) L := by
  have leaf : ∀ (n : Node) (L : List Nat), (enumLeaf k i n.entries >>= fun _ => ok []) = ok L → Fresh capacity (pureRes (enumLeaf k i n.entries)) L := by
    intro n L h
    obtain ⟨a, h1, h⟩ := bind_eq_ok.1 h
    cases Res.ok.inj h
    rw [h1]
    exact Fresh.ok a
  induction fuel with
  | zero =>
    intro s L h
    unfold loads at h
    unfold enumNode
    refine Fresh.deref ?_
    split at h
    · next hl => rw [if_pos hl]; exact leaf _ _ h
    · cases h
  | succ fuel ih =>
    intro s L h
    unfold loads at h
    unfold enumNode
    refine Fresh.deref ?_
    split at h
    · next hl => rw [if_pos hl]; exact leaf _ _ h
    · next hl =>
      rw [if_neg hl]
      refine enumBranch_fresh (fun value L hL => ?_) _ _ _ h
      obtain ⟨b, h1, hL⟩ := bind_eq_ok.1 hL
      obtain ⟨m, h2, hL⟩ := bind_eq_ok.1 hL
      obtain ⟨l, h3, hL⟩ := bind_eq_ok.1 hL
      cases Res.ok.inj hL
      rw [h1, pureRes_ok]
      exact getSub_fresh h0 hp h2 fun t ht => ih t l (ht ▸ h3)

/-- the children that the enumeration visits, by the values of their entries, in order -/
def visits {α : Type} (k : Kind α) (i : Nat) (es : List Entry) (previous : Option Entry) : Res (List Bytes) :=
  FsTree.enumBranch { dataType := k.dataType, decode := fun _ => ok [], before := k.before } (fun value => ok [value]) i es previous

theorem enumBranch_freed {α : Type} {capacity : Nat} {k : Kind α} {i : Nat} {s : Slot} {visit : Bytes → CM (List α)} {pvisit : Bytes → Res (List Nat)}
    (hv : ∀ value L, pvisit value = ok L → Fresh capacity (visit value) L) : ∀ (es : List Entry) (previous : Option Entry) (front : List Bytes) (last : Bytes)
      (parts : List (List Nat)) (c : Cache) (seen : List Nat), visits k i es previous = ok (front ++ [last]) → front.map pvisit = parts.map ok → Window capacity seen c →
      parts.flatten.Nodup → (∀ b ∈ parts.flatten, b ∉ seen) → s.stamp + capacity < c.next + parts.flatten.length → (enumBranch k visit s i es previous c).1 = ub := by
  have single : ∀ {front : List Bytes} {last x : Bytes}, [x] = front ++ [last] → front = [] := by
    intro front last x h
    have := congrArg List.length h
    simp only [List.length_append, List.length_singleton] at this
    exact List.eq_nil_of_length_eq_zero (by omega)
  have empty : ∀ {parts : List (List Nat)}, ([] : List Bytes).map pvisit = parts.map ok → parts = [] := by
    intro parts h
    cases parts with
    | nil => rfl
    | cons a l => cases h
  intro es
  induction es with
  | nil =>
    intro previous front last parts c seen h hm hw hn hd hs
    cases previous with
    | none => cases h
    | some q =>
      cases single (Res.ok.inj h)
      cases empty hm
      unfold enumBranch
      rw [bind_ub (hw.freed (by simpa using hs))]
  | cons e es ih =>
    intro previous front last parts c seen h hm hw hn hd hs
    unfold visits FsTree.enumBranch at h
    unfold enumBranch
    by_cases hany : ¬ c.slots.any (fun t => t.stamp = s.stamp) = true
    · have : NodeCache.deref s c = (ub, c) := by unfold NodeCache.deref; rw [if_neg hany]
      rw [bind_ub this]
    have hany := Classical.not_not.1 hany
    have hder : NodeCache.deref s c = (Res.ok (), c) := by unfold NodeCache.deref; rw [if_pos hany]
    have hnot : ¬ s.stamp + capacity < c.next := by
      intro hlt
      have := hw.freed hlt
      rw [hder] at this
      exact absurd (congrArg Prod.fst this) (by simp)
    obtain ⟨_, h1, h⟩ := bind_eq_ok.1 h
    obtain ⟨key, h2, h⟩ := bind_eq_ok.1 h
    rw [bind_ok hder, h1, h2, pureRes_ok, pureRes_ok]
    dsimp only at h
    by_cases hov : key % 2 ^ 60 > i ∨ (key % 2 ^ 60 = i ∧ key / 2 ^ 60 > k.dataType)
    · rw [if_pos hov] at h
      cases previous with
      | none => cases h
      | some q =>
        cases single (Res.ok.inj h)
        cases empty hm
        exact absurd (by simpa using hs) hnot
    · rw [if_neg hov] at h ⊢
      obtain ⟨low, h3, h⟩ := bind_eq_ok.1 h
      obtain ⟨xs, h4, h⟩ := bind_eq_ok.1 h
      obtain ⟨ys, h5, h⟩ := bind_eq_ok.1 h
      have h := Res.ok.inj h
      rw [h3, pureRes_ok]
      have skip : xs = [] → (enumBranch k visit s i es (some e) c).1 = ub := by
        rintro rfl
        rw [List.nil_append] at h
        exact ih (some e) front last parts c seen (h ▸ h5) hm hw hn hd hs
      cases low with
      | false =>
        have hx : xs = [] := (Res.ok.inj h4).symm
        rw [bind_ok (pure_def _ _)]
        rw [bind_ub (Prod.ext (skip hx) rfl)]
      | true =>
        cases previous with
        | none =>
          have hx : xs = [] := (Res.ok.inj h4).symm
          rw [bind_ok (pure_def _ _)]
          rw [bind_ub (Prod.ext (skip hx) rfl)]
        | some q =>
          have hx : xs = [q.2] := (Res.ok.inj h4).symm
          subst hx
          cases front with
          | nil =>
            cases empty hm
            exact absurd (by simpa using hs) hnot
          | cons x front =>
            simp only [List.cons_append, List.nil_append, List.cons.injEq] at h
            obtain ⟨hx, h⟩ := h
            cases parts with
            | nil => cases hm
            | cons L parts =>
              simp only [List.map_cons, List.cons.injEq] at hm
              rw [List.flatten_cons] at hn hd hs
              rw [List.nodup_append] at hn
              have hq := hv q.2 L (hx ▸ hm.1)
              dsimp only
              rcases hq c seen hw hn.1 (fun b hb => hd b (List.mem_append_left _ hb)) with hub | ⟨⟨a, g1⟩, g2, g3⟩
              · rw [bind_ub (Prod.ext hub rfl)]
              · rw [bind_ok (Prod.ext g1 rfl)]
                have := ih (some e) front last parts (visit q.2 c).2 (seen ++ L) (h ▸ h5) hm.2 g2 hn.2.1 (fun b hb => by
                  rw [List.mem_append]
                  rintro (h | h)
                  · exact hd b (List.mem_append_right _ hb) h
                  · exact hn.2.2 b h b hb rfl) (by rw [g3]; rw [List.length_append] at hs; omega)
                rw [bind_ub (Prod.ext this rfl)]

end NodeCache
end Verif
