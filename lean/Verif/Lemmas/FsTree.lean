import Verif.Lemmas.ObjectMap
import Verif.Model.FsTree
import Verif.Spec.FsTree
/-! Lemmas: enumeration and lookup in file system trees -/
namespace Verif
open Res Spec
namespace FsTree
open BTree

/-- reading a list of records -/
def readAll {α : Type} (decode : Entry → Res α) : List Entry → Res (List α)
  | [] => ok []
  | e :: es => do
    let x ← decode e
    let xs ← readAll decode es
    return x :: xs

theorem readAll_append {α : Type} (decode : Entry → Res α) (a b : List Entry) : readAll decode (a ++ b) = (do
    let xs ← readAll decode a
    let ys ← readAll decode b
    return xs ++ ys) := by
  induction a with
  | nil =>
    show readAll decode b = (readAll decode b >>= fun ys => pure ([] ++ ys))
    cases readAll decode b <;> rfl
  | cons e a ih =>
    have hc : ∀ l, readAll decode (e :: l) = (decode e >>= fun x => readAll decode l >>= fun xs => pure (x :: xs)) := fun _ => rfl
    rw [List.cons_append, hc, hc, ih]
    cases decode e with
    | err => rfl
    | ub => rfl
    | ok x =>
      simp only [ok_bind]
      cases readAll decode a with
      | err => rfl
      | ub => rfl
      | ok xs =>
        simp only [ok_bind]
        cases readAll decode b <;> rfl

theorem readAll_ok {α : Type} {decode : Entry → Res α} {f : Entry → α} {es : List Entry} (h : ∀ e ∈ es, decode e = ok (f e)) : readAll decode es = ok (es.map f) := by
  induction es with
  | nil => rfl
  | cons e es ih =>
    unfold readAll
    rw [h e (by simp), ok_bind, ih (fun x hx => h x (by simp [hx])), ok_bind]
    rfl

theorem readAll_inv {α : Type} {decode : Entry → Res α} {es : List Entry} {l : List α} (h : readAll decode es = ok l) :
    l.length = es.length ∧ ∀ k (h1 : k < l.length) (h2 : k < es.length), decode es[k] = ok l[k] := by
  induction es generalizing l with
  | nil =>
    cases h
    exact ⟨rfl, fun k h1 => absurd h1 (by simp)⟩
  | cons e es ih =>
    unfold readAll at h
    obtain ⟨x, hx, h⟩ := bind_eq_ok.1 h
    obtain ⟨xs, hxs, h⟩ := bind_eq_ok.1 h
    cases h
    obtain ⟨i1, i2⟩ := ih hxs
    refine ⟨by simp [i1], fun k h1 h2 => ?_⟩
    cases k with
    | zero => exact hx
    | succ k => exact i2 k (by simpa using h1) (by simpa using h2)

theorem lookupKey_eq {t i : Nat} (ht : t < 16) (hi : i < 2 ^ 60) : lookupKey t i = t * 2 ^ 60 + i := by
  unfold lookupKey
  rw [Nat.mod_eq_of_lt (by omega), Nat.mul_comm, Nat.two_pow_add_eq_or_of_lt hi]

theorem lookupKey_iff {key : Bytes} {t i : Nat} (ht : t < 16) (hi : i < 2 ^ 60) : field key 0 8 = lookupKey t i ↔ fsId key = i ∧ fsType key = t := by
  rw [lookupKey_eq ht hi]
  unfold fsId fsType
  omega

/-- what the enumerations need to know about the records of the identifier and type -/
structure BeforeOk {α : Type} (k : Kind α) (identifier : Nat) (rs : List Record) : Prop where
  total : ∀ r ∈ rs, IsOf identifier k.dataType r → ∃ f, k.before r.1 = ok f
  first : rs.Pairwise (fun a b => IsOf identifier k.dataType a → IsOf identifier k.dataType b → k.before b.1 = ok true)

theorem BeforeOk.left {α : Type} {k : Kind α} {i : Nat} {a b : List Record} (h : BeforeOk k i (a ++ b)) : BeforeOk k i a :=
  ⟨fun r hr => h.total r (by simp [hr]), (List.pairwise_append.1 h.first).1⟩

theorem BeforeOk.right {α : Type} {k : Kind α} {i : Nat} {a b : List Record} (h : BeforeOk k i (a ++ b)) : BeforeOk k i b :=
  ⟨fun r hr => h.total r (by simp [hr]), (List.pairwise_append.1 h.first).2.1⟩

theorem over_of_le {i t : Nat} {a b : Bytes} (h : fsLe a b) (ha : fsOver i t a) : fsOver i t b := by
  unfold fsLe at h
  unfold fsOver at *
  omega

theorem not_isOf_of_over {i t : Nat} {r : Record} (h : fsOver i t r.1) : ¬ IsOf i t r := by
  unfold fsOver at h
  unfold IsOf
  omega

theorem recordsOf_over {rs : List Record} {i t : Nat} (h : ∀ r ∈ rs, fsOver i t r.1) : recordsOf rs i t = [] := by
  unfold recordsOf
  rw [List.filter_eq_nil_iff]
  intro r hr
  simpa using not_isOf_of_over (h r hr)

theorem recordsOf_append (a b : List Record) (i t : Nat) : recordsOf (a ++ b) i t = recordsOf a i t ++ recordsOf b i t := by
  unfold recordsOf
  rw [List.filter_append]

theorem enumLeaf_spec {α : Type} {k : Kind α} {i : Nat} (ht : k.dataType < 16) (hi : i < 2 ^ 60) {rs : List Record} (hk : ∀ r ∈ rs, 8 ≤ r.1.length)
    (hs : rs.Pairwise (fun a b => fsLe a.1 b.1)) : enumLeaf k i rs = readAll k.decode (recordsOf rs i k.dataType) := by
  induction rs with
  | nil => rfl
  | cons r rs ih =>
    have hl := hk r (by simp)
    have hs' := List.pairwise_cons.1 hs
    have ih := ih (fun x hx => hk x (by simp [hx])) hs'.2
    unfold enumLeaf
    rw [require_true (by omega), ok_bind, rdLE_field (by omega), ok_bind]
    by_cases h1 : field r.1 0 8 % 2 ^ 60 > i
    · rw [if_pos h1]
      have hov : fsOver i k.dataType r.1 := .inl h1
      rw [recordsOf_over]
      · rfl
      · intro x hx
        rcases List.mem_cons.1 hx with rfl | hx
        · exact hov
        · exact over_of_le (hs'.1 x hx) hov
    · rw [if_neg h1]
      by_cases h2 : field r.1 0 8 = lookupKey k.dataType i
      · rw [if_neg (by simpa using h2)]
        have : recordsOf (r :: rs) i k.dataType = r :: recordsOf rs i k.dataType := by
          unfold recordsOf
          rw [List.filter_cons_of_pos]
          exact decide_eq_true ((lookupKey_iff ht hi).1 h2)
        rw [this, ih]
        rfl
      · rw [if_pos h2]
        have : recordsOf (r :: rs) i k.dataType = recordsOf rs i k.dataType := by
          unfold recordsOf
          rw [List.filter_cons_of_neg]
          simp only [decide_eq_true_eq]
          exact fun h => h2 ((lookupKey_iff ht hi).2 h)
        rw [this, ih]

/-- the first record below a child has the key of the entry -/
def FirstKey (c : Child) : Prop := ∃ r t, c.records = r :: t ∧ r.1 = c.key

theorem firstKey_of {c : Child} (h : c.records.head?.map (·.1) = some c.key) : FirstKey c := by
  unfold FirstKey
  cases hrec : c.records with
  | nil => rw [hrec] at h; simp at h
  | cons r t => rw [hrec] at h; exact ⟨r, t, rfl, by simpa using h⟩

def allRecords (cs : List Child) : List Record := (cs.map (·.records)).flatten

theorem allRecords_cons (c : Child) (cs : List Child) : allRecords (c :: cs) = c.records ++ allRecords cs := by
  unfold allRecords
  rw [List.map_cons, List.flatten_cons]

/-- the loop over the entries of a branch node, with a previous entry -/
theorem enumBranch_some {α : Type} {k : Kind α} {visit : Bytes → Res (List α)} {i : Nat} {p : Child} {cs : List Child}
    (hv : ∀ c ∈ p :: cs, ¬ fsOver i k.dataType c.key → visit c.value = readAll k.decode (recordsOf c.records i k.dataType))
    (hf : ∀ c ∈ p :: cs, FirstKey c) (hp : ¬ fsOver i k.dataType p.key)
    (hk : ∀ r ∈ allRecords (p :: cs), 8 ≤ r.1.length) (hs : (allRecords (p :: cs)).Pairwise (fun a b => fsLe a.1 b.1))
    (hb : BeforeOk k i (allRecords (p :: cs))) :
    enumBranch k visit i (cs.map (fun c => (c.key, c.value))) (some (p.key, p.value)) = readAll k.decode (recordsOf (allRecords (p :: cs)) i k.dataType) := by
  induction cs generalizing p with
  | nil =>
    show visit p.value = _
    rw [hv p (by simp) hp]
    simp [allRecords]
  | cons c cs ih =>
    rw [allRecords_cons] at hk hs hb ⊢
    obtain ⟨r, t, f1, f2⟩ := hf c (by simp)
    have hmem : r ∈ allRecords (c :: cs) := by rw [allRecords_cons, f1]; simp
    have hl : 8 ≤ c.key.length := by
      rw [← f2]
      exact hk r (by simp [hmem])
    have hs' := List.pairwise_append.1 hs
    rw [List.map_cons]
    unfold enumBranch
    simp only
    rw [require_true (by omega), ok_bind, rdLE_field (by omega), ok_bind]
    by_cases hov : fsOver i k.dataType c.key
    · have hpos : field c.key 0 8 % 2 ^ 60 > i ∨ (field c.key 0 8 % 2 ^ 60 = i ∧ field c.key 0 8 / 2 ^ 60 > k.dataType) := hov
      rw [if_pos hpos, hv p (by simp) hp, recordsOf_append, recordsOf_over (rs := allRecords (c :: cs)), List.append_nil]
      intro x hx
      rw [allRecords_cons, f1, List.cons_append] at hx
      have hs2 := hs'.2.1
      rw [allRecords_cons, f1, List.cons_append] at hs2
      rcases List.mem_cons.1 hx with rfl | hx
      · rw [f2]; exact hov
      · exact over_of_le ((List.pairwise_cons.1 hs2).1 x hx) (by rw [f2]; exact hov)
    · have hneg : ¬ (field c.key 0 8 % 2 ^ 60 > i ∨ (field c.key 0 8 % 2 ^ 60 = i ∧ field c.key 0 8 / 2 ^ 60 > k.dataType)) := hov
      rw [if_neg hneg]
      have hih := ih (p := c) (fun x hx => hv x (by simp only [List.mem_cons] at hx ⊢; exact .inr hx)) (fun x hx => hf x (by simp only [List.mem_cons] at hx ⊢; exact .inr hx)) hov
        (fun x hx => hk x (List.mem_append.2 (.inr hx))) hs'.2.1 hb.right
      rw [hih, recordsOf_append, readAll_append]
      by_cases hm : field c.key 0 8 % 2 ^ 60 = i ∧ field c.key 0 8 / 2 ^ 60 = k.dataType
      · rw [if_pos hm]
        have hmr : IsOf i k.dataType r := by
          unfold IsOf
          rw [f2]
          exact hm
        obtain ⟨f, hf'⟩ := hb.total r (by simp [hmem]) hmr
        rw [f2] at hf'
        rw [hf', ok_bind]
        cases f with
        | true =>
          simp only
          rw [hv p (by simp) hp]
        | false =>
          simp only
          -- no record before
          have : recordsOf p.records i k.dataType = [] := by
            unfold recordsOf
            rw [List.filter_eq_nil_iff]
            intro x hx
            have := (List.pairwise_append.1 hb.first).2.2 x hx r hmem
            simp only [decide_eq_true_eq]
            intro hxm
            have := this hxm hmr
            rw [f2, hf'] at this
            cases this
          rw [this]
          rfl
      · rw [if_neg hm]
        simp only [pure_bind]
        have : recordsOf p.records i k.dataType = [] := by
          unfold recordsOf
          rw [List.filter_eq_nil_iff]
          intro x hx
          have hle := hs'.2.2 x hx r hmem
          rw [f2] at hle
          simp only [decide_eq_true_eq]
          unfold fsLe at hle
          unfold fsOver at hov
          unfold fsId fsType at *
          unfold IsOf fsId fsType
          omega
        rw [this]
        rfl

theorem enumBranch_none {α : Type} {k : Kind α} {visit : Bytes → Res (List α)} {i : Nat} {c : Child} {cs : List Child}
    (hv : ∀ x ∈ c :: cs, ¬ fsOver i k.dataType x.key → visit x.value = readAll k.decode (recordsOf x.records i k.dataType))
    (hf : ∀ x ∈ c :: cs, FirstKey x) (hp : ¬ fsOver i k.dataType c.key)
    (hk : ∀ r ∈ allRecords (c :: cs), 8 ≤ r.1.length) (hs : (allRecords (c :: cs)).Pairwise (fun a b => fsLe a.1 b.1))
    (hb : BeforeOk k i (allRecords (c :: cs))) :
    enumBranch k visit i ((c :: cs).map (fun c => (c.key, c.value))) none = readAll k.decode (recordsOf (allRecords (c :: cs)) i k.dataType) := by
  obtain ⟨r, t, f1, f2⟩ := hf c (by simp)
  have hmem : r ∈ allRecords (c :: cs) := by rw [allRecords_cons, f1]; simp
  have hl : 8 ≤ c.key.length := by
    rw [← f2]
    exact hk r hmem
  rw [List.map_cons]
  unfold enumBranch
  simp only
  rw [require_true (by omega), ok_bind, rdLE_field (by omega), ok_bind]
  have hneg : ¬ (field c.key 0 8 % 2 ^ 60 > i ∨ (field c.key 0 8 % 2 ^ 60 = i ∧ field c.key 0 8 / 2 ^ 60 > k.dataType)) := hp
  rw [if_neg hneg, enumBranch_some hv hf hp hk hs hb]
  have hlow : ∃ f, (if field c.key 0 8 % 2 ^ 60 = i ∧ field c.key 0 8 / 2 ^ 60 = k.dataType then k.before c.key else pure false) = ok f := by
    by_cases hm : field c.key 0 8 % 2 ^ 60 = i ∧ field c.key 0 8 / 2 ^ 60 = k.dataType
    · rw [if_pos hm, ← f2]
      exact hb.total r hmem (by unfold IsOf; rw [f2]; exact hm)
    · rw [if_neg hm]
      exact ⟨false, rfl⟩
  obtain ⟨f, hf'⟩ := hlow
  rw [hf', ok_bind]
  cases f <;> (simp only [pure_bind]; cases readAll k.decode (recordsOf (allRecords (c :: cs)) i k.dataType) <;> rfl)

/-- enumeration of a tree; the first record is not behind those looked for unless the root is a leaf -/
theorem enumNode_spec {α : Type} {k : Kind α} {i : Nat} (ht : k.dataType < 16) (hi : i < 2 ^ 60) {sub : Bytes → Res Node} {rel : Bytes → TNode → Prop}
    (hsubs : ∀ v t, rel v t → ∃ m, sub v = ok m ∧ view m = t) {depth : Nat} {n : Node} {rs : List Record} (h : IsTree rel depth (view n) rs)
    (hk : ∀ r ∈ rs, 8 ≤ r.1.length) (hs : rs.Pairwise (fun a b => fsLe a.1 b.1)) (hb : BeforeOk k i rs)
    (hfirst : n.leaf = false → ∀ r ∈ rs.head?, ¬ fsOver i k.dataType r.1) :
    enumNode k sub i depth n = readAll k.decode (recordsOf rs i k.dataType) := by
  induction depth generalizing n rs with
  | zero => exact absurd h (by unfold IsTree; exact id)
  | succ depth ih =>
    unfold IsTree at h
    unfold enumNode
    rcases h with ⟨hl, he⟩ | ⟨hl, cs, hne, he, hrs, hc⟩
    · have hl : n.leaf = true := hl
      have he : n.entries = rs := he
      rw [if_pos hl, he]
      exact enumLeaf_spec ht hi hk hs
    · have hl : n.leaf = false := hl
      have he : n.entries = cs.map (fun c => (c.key, c.value)) := he
      rw [if_neg (by simp [hl]), he]
      have hrs : rs = allRecords cs := hrs
      subst hrs
      cases cs with
      | nil => exact absurd rfl hne
      | cons c cs =>
        have hf : ∀ x ∈ c :: cs, FirstKey x := fun x hx => firstKey_of (hc x hx).2.2
        have hp : ¬ fsOver i k.dataType c.key := by
          obtain ⟨r, t, f1, f2⟩ := hf c (by simp)
          rw [← f2]
          exact hfirst hl r (by rw [allRecords_cons, f1]; simp)
        refine enumBranch_none ?_ hf hp hk hs hb
        intro x hx hov
        obtain ⟨m, m1, m2⟩ := hsubs _ _ (hc x hx).1
        simp only [m1, ok_bind]
        obtain ⟨a, b, hab⟩ := List.append_of_mem hx
        have hsplit : allRecords (c :: cs) = allRecords a ++ (x.records ++ allRecords b) := by
          rw [hab]
          unfold allRecords
          simp
        rw [hsplit] at hk hs hb
        refine ih (by rw [m2]; exact (hc x hx).2.1) (fun r hr => hk r (by simp [hr])) (List.pairwise_append.1 (List.pairwise_append.1 hs).2.1).1 hb.right.left ?_
        intro _ r hr
        obtain ⟨r', t, f1, f2⟩ := hf x hx
        rw [f1] at hr
        simp only [List.head?_cons, Option.mem_def, Option.some.injEq] at hr
        subst hr
        rw [f2]
        exact hov

/-- a volume as stored -/
def volumeOf (s : Storage) : Volume := { omFetch := fetchOf s.omImage, omRoot := s.omRoot, fsFetch := fetchOf s.fsImage, fsRoot := s.fsRoot }

theorem fsRootNode_ok {s : Storage} {d : Bytes} (h : FsRoot s.fsImage s.fsRoot d) : fsRootNode (volumeOf s) = ok (some (parsed d)) := by
  unfold fsRootNode volumeOf
  simp only
  rw [require_true (by have := h.range; omega), ok_bind]
  unfold fetchOf
  rw [h.stored]
  simp only [ok_bind]
  rw [readNode_valid h.valid, ok_bind]
  unfold parsed
  simp only
  have hnf : ¬ BNode.flags d / 4 % 2 ≠ 0 := fun hf => by have := fixed_iff.2 hf; rw [h.fixed] at this; cases this
  rw [if_neg (by rcases h.type with e | e <;> rw [e] <;> decide), require_true h.type, ok_bind, require_true h.subtype, ok_bind,
    require_true (by have h1 := root_iff.1 h.root; omega), ok_bind]
  have hfo := h.footer
  unfold footerFields at hfo
  simp only [Prod.mk.injEq] at hfo
  have : footerOf d = some { nodeSize := 4096, keySize := 0, valueSize := 0 } := by
    unfold footerOf
    rw [if_pos (root_iff.1 h.root), hfo.1, hfo.2.1, hfo.2.2]
  rw [this]
  simp only
  rw [require_true trivial]
  rfl

theorem omDescriptor_ok {image : Nat → Option Bytes} {root : Nat} {mappings : List Record} (hm : OmTree image root mappings) {oid xid : Nat} (h0 : oid ≠ 0) {r : Record}
    (hr : Newest mappings oid xid r) : ∃ desc, omDescriptor (fetchOf image) root oid xid = ok (some desc) ∧ desc.physical = field r.2 8 8 := by
  have hlen := omTree_lengths hm
  -- the newest version is unique
  rcases omLookup_spec hm h0 (xid := xid) with ⟨h1, _⟩ | ⟨q, h1, h2⟩
  · exact absurd ⟨r, hr.1, hr.2.1, hr.2.2.1⟩ h1
  · have hq : q = r := by
      have ha := hr.2.2.2 q h1.1 h1.2.1 h1.2.2.1
      have hb := h1.2.2.2 r hr.1 hr.2.1 hr.2.2.1
      have hp := hm.2
      unfold Ascending at hp
      refine Classical.byContradiction fun hne => ?_
      have := List.Pairwise.forall_of_forall_of_flip (R := fun a b : Record => a = b ∨ omLt a.1 b.1 ∨ omLt b.1 a.1) (l := mappings) (fun _ _ => .inl rfl)
        (hp.imp (fun h => .inr (.inl h))) (hp.imp (fun h => .inr (.inr h))) h1.1 hr.1
      have g1 := h1.2.1
      have g2 := hr.2.1
      rcases this with h | h | h
      · exact hne h
      · unfold omLt at h; omega
      · unfold omLt at h; omega
    subst hq
    obtain ⟨hk, hv⟩ := hlen q h1.1
    unfold omDescriptor
    rw [h2, ok_bind]
    simp only
    rw [require_true (by omega), ok_bind, rdLE_field (by omega), ok_bind, rdLE_field (by omega), ok_bind, require_true (by omega), ok_bind,
      rdLE_field (by omega), ok_bind, rdLE_field (by omega), ok_bind, rdLE_field (by omega), ok_bind]
    exact ⟨_, rfl, rfl⟩

theorem fsSub_ok {s : Storage} {mappings : List Record} (hm : OmTree s.omImage s.omRoot mappings) {xid : Nat} (v : Bytes) (t : TNode)
    (h : FsChild s mappings xid v t) : ∃ m, fsSub (volumeOf s) xid v = ok m ∧ view m = t := by
  obtain ⟨hl, h0, r, hr, d, hd, rfl⟩ := h
  refine ⟨parsed d, ?_, view_parsed d⟩
  unfold fsSub volumeOf
  rw [require_true hl, ok_bind, rdLE_field (by omega), ok_bind]
  simp only
  obtain ⟨desc, e1, e2⟩ := omDescriptor_ok hm h0 hr
  rw [e1, ok_bind]
  simp only
  rw [e2]
  unfold fsSubNode
  rw [require_true (by have := hd.range; omega), ok_bind]
  simp only
  unfold fetchOf
  rw [hd.stored]
  simp only [ok_bind]
  rw [readNode_valid hd.valid, ok_bind]
  unfold parsed
  simp only
  have hnf : ¬ BNode.flags d / 4 % 2 ≠ 0 := fun hf => by have := fixed_iff.2 hf; rw [hd.fixed] at this; cases this
  have hnr : ¬ BNode.flags d % 2 ≠ 0 := fun hf => by have := root_iff.2 hf; rw [hd.root] at this; cases this
  rw [require_true hd.type, ok_bind, require_true hd.subtype, ok_bind, require_true (by omega), ok_bind]
  rfl

/-- enumerating a file system tree -/
theorem enumerate_spec {α : Type} {k : Kind α} {i : Nat} (ht : k.dataType < 16) (hi : i < 2 ^ 60) {s : Storage} {xid : Nat} {rs : List Record}
    (h : FsHolds s xid rs) (hb : BeforeOk k i rs) (hfirst : ∀ r ∈ rs.head?, ¬ fsOver i k.dataType r.1) :
    enumerate k (volumeOf s) xid i = readAll k.decode (recordsOf rs i k.dataType) := by
  obtain ⟨⟨mappings, hm, d, hd, htree⟩, hk, hs⟩ := h
  unfold enumerate
  rw [fsRootNode_ok hd, ok_bind]
  simp only
  exact enumNode_spec ht hi (fsSub_ok hm) (by rw [view_parsed]; exact htree) hk hs hb (fun _ => hfirst)

/-! lookup by identifier -/

theorem fsEntryFromNode_leaf {i t : Nat} (ht : t < 16) (hi : i < 2 ^ 60) {rs : List Record} (hk : ∀ r ∈ rs, 8 ≤ r.1.length) (p : Option Entry) :
    fsEntryFromNode true i t rs p = ok ((recordsOf rs i t).head?.map some) := by
  induction rs with
  | nil => rfl
  | cons r rs ih =>
    have hl := hk r (by simp)
    unfold fsEntryFromNode
    rw [require_true (by omega), ok_bind, rdLE_field (by omega), ok_bind]
    simp only [if_true]
    by_cases h : field r.1 0 8 = lookupKey t i
    · rw [if_pos h]
      have : recordsOf (r :: rs) i t = r :: recordsOf rs i t := by
        unfold recordsOf
        rw [List.filter_cons_of_pos]
        exact decide_eq_true ((lookupKey_iff ht hi).1 h)
      rw [this]
      rfl
    · rw [if_neg h, ih (fun x hx => hk x (by simp [hx]))]
      have : recordsOf (r :: rs) i t = recordsOf rs i t := by
        unfold recordsOf
        rw [List.filter_cons_of_neg]
        simp only [decide_eq_true_eq]
        exact fun h' => h ((lookupKey_iff ht hi).2 h')
      rw [this]

/-- what the lookup needs: the record looked for is the only one and the first one of its identifier -/
structure LookupOk (i t : Nat) (rs : List Record) : Prop where
  unique : rs.Pairwise (fun a b => ¬ (IsOf i t a ∧ IsOf i t b))
  lowest : ∀ r ∈ rs, fsId r.1 = i → t ≤ fsType r.1

theorem LookupOk.left {i t : Nat} {a b : List Record} (h : LookupOk i t (a ++ b)) : LookupOk i t a :=
  ⟨(List.pairwise_append.1 h.unique).1, fun r hr => h.lowest r (by simp [hr])⟩

theorem LookupOk.right {i t : Nat} {a b : List Record} (h : LookupOk i t (a ++ b)) : LookupOk i t b :=
  ⟨(List.pairwise_append.1 h.unique).2.1, fun r hr => h.lowest r (by simp [hr])⟩

theorem recordsOf_nil {rs : List Record} {i t : Nat} (h : ∀ r ∈ rs, ¬ IsOf i t r) : recordsOf rs i t = [] := by
  unfold recordsOf
  rw [List.filter_eq_nil_iff]
  intro r hr
  simpa using h r hr

/-- the records after a child whose key is behind, or is the one looked for -/
theorem rest_none {i t : Nat} {c : Child} {cs : List Child} (hf : FirstKey c) (hs : (allRecords (c :: cs)).Pairwise (fun a b => fsLe a.1 b.1))
    (hu : LookupOk i t (allRecords (c :: cs))) (hge : fsId c.key ≥ i) : recordsOf (allRecords cs) i t = [] := by
  obtain ⟨r, tl, f1, f2⟩ := hf
  rw [allRecords_cons, f1, List.cons_append] at hs hu
  apply recordsOf_nil
  intro x hx
  have hx' : x ∈ tl ++ allRecords cs := by simp [hx]
  have hle := (List.pairwise_cons.1 hs).1 x hx'
  have hun := (List.pairwise_cons.1 hu.unique).1 x hx'
  have hlow := hu.lowest r (by simp)
  rw [f2] at hle hlow
  have hxl := hu.lowest x (by simp [hx])
  unfold fsLe at hle
  unfold IsOf at *
  rw [f2] at hun
  omega

theorem fsEntryFromNode_branch {i t : Nat} {cs : List Child} {p : Option Child} (hf : ∀ c ∈ cs, FirstKey c) (hp : ∀ c ∈ p, fsId c.key < i)
    (hk : ∀ r ∈ allRecords (p.toList ++ cs), 8 ≤ r.1.length)
    (hs : (allRecords (p.toList ++ cs)).Pairwise (fun a b => fsLe a.1 b.1)) (hu : LookupOk i t (allRecords (p.toList ++ cs))) (hne : p.toList ++ cs ≠ []) :
    ∃ c ∈ p.toList ++ cs, fsEntryFromNode false i t (cs.map (fun c => (c.key, c.value))) (p.map (fun c => (c.key, c.value))) = ok (some (some (c.key, c.value))) ∧
      recordsOf (allRecords (p.toList ++ cs)) i t = recordsOf c.records i t := by
  induction cs generalizing p with
  | nil =>
    cases p with
    | none => exact absurd rfl hne
    | some p => exact ⟨p, by simp, rfl, by simp [allRecords]⟩
  | cons c cs ih =>
    obtain ⟨r, tl, f1, f2⟩ := hf c (by simp)
    have happ : ∀ (a b : List Child), allRecords (a ++ b) = allRecords a ++ allRecords b := by
      intro a b
      unfold allRecords
      simp
    have hmem : r ∈ allRecords (c :: cs) := by rw [allRecords_cons, f1]; simp
    rw [happ] at hk hs hu
    have hl : 8 ≤ c.key.length := by
      rw [← f2]
      exact hk r (List.mem_append.2 (.inr hmem))
    have hs' := List.pairwise_append.1 hs
    rw [List.map_cons]
    unfold fsEntryFromNode
    simp only
    rw [require_true (by omega), ok_bind, rdLE_field (by omega), ok_bind]
    simp only [Bool.false_eq_true, if_false]
    by_cases hge : field c.key 0 8 % 2 ^ 60 ≥ i
    · rw [if_pos hge]
      have hrest := rest_none (hf c (by simp)) hs'.2.1 hu.right hge
      have hlow := hu.lowest r (List.mem_append.2 (.inr hmem))
      rw [f2] at hlow
      cases p with
      | none =>
        refine ⟨c, by simp, ?_, ?_⟩
        · simp
        · show recordsOf (allRecords (c :: cs)) i t = _
          rw [allRecords_cons, recordsOf_append, hrest, List.append_nil]
      | some p =>
        by_cases hch : field c.key 0 8 % 2 ^ 60 = i ∧ field c.key 0 8 / 2 ^ 60 ≤ t
        · refine ⟨c, by simp, ?_, ?_⟩
          · rw [if_pos (.inr hch)]
            rfl
          · have hpn : recordsOf (allRecords [p]) i t = [] := by
              apply recordsOf_nil
              intro x hx hxi
              refine (List.pairwise_append.1 hu.unique).2.2 x hx r hmem ⟨hxi, ?_⟩
              unfold IsOf
              rw [f2]
              unfold fsId fsType at *
              omega
            rw [happ, recordsOf_append]
            show recordsOf (allRecords [p]) i t ++ recordsOf (allRecords (c :: cs)) i t = _
            rw [hpn, allRecords_cons, recordsOf_append, hrest]
            simp
        · refine ⟨p, by simp, ?_, ?_⟩
          · rw [if_neg (by simpa using hch)]
            rfl
          · have hcn : recordsOf c.records i t = [] := by
              apply recordsOf_nil
              intro x hx
              have hs2 := hs'.2.1
              rw [allRecords_cons] at hs2
              have hs3 := (List.pairwise_append.1 hs2).1
              rw [f1] at hs3 hx
              have hov : fsOver i t r.1 := by
                rw [f2]
                unfold fsOver fsId fsType
                omega
              rcases List.mem_cons.1 hx with rfl | hx
              · exact not_isOf_of_over hov
              · exact not_isOf_of_over (over_of_le ((List.pairwise_cons.1 hs3).1 x hx) hov)
            rw [happ, recordsOf_append, allRecords_cons c cs, recordsOf_append, hrest, hcn]
            simp [allRecords]
    · rw [if_neg hge]
      obtain ⟨c', m1, m2, m3⟩ := ih (p := some c) (fun x hx => hf x (by simp [hx])) (by intro x hx; cases hx; unfold fsId; omega)
        (fun x hx => hk x (List.mem_append.2 (.inr hx))) hs'.2.1 hu.right (by simp)
      refine ⟨c', List.mem_append.2 (.inr m1), m2, ?_⟩
      have hpn : recordsOf (allRecords p.toList) i t = [] := by
        apply recordsOf_nil
        intro x hx
        have hle := hs'.2.2 x hx r hmem
        rw [f2] at hle
        unfold fsLe at hle
        unfold IsOf
        unfold fsId at *
        omega
      rw [happ, recordsOf_append, hpn, List.nil_append]
      exact m3

theorem fsEntryLoop_spec {i t : Nat} (ht : t < 16) (hi : i < 2 ^ 60) {sub : Bytes → Res Node} {rel : Bytes → TNode → Prop}
    (hsubs : ∀ v t, rel v t → ∃ m, sub v = ok m ∧ view m = t) {depth : Nat} {n : Node} {rs : List Record} (h : IsTree rel depth (view n) rs)
    (hk : ∀ r ∈ rs, 8 ≤ r.1.length) (hs : rs.Pairwise (fun a b => fsLe a.1 b.1)) (hu : LookupOk i t rs) :
    fsEntryLoop sub i t depth n = ok (recordsOf rs i t).head? := by
  induction depth generalizing n rs with
  | zero => exact absurd h (by unfold IsTree; exact id)
  | succ depth ih =>
    unfold IsTree at h
    unfold fsEntryLoop
    rcases h with ⟨hl, he⟩ | ⟨hl, cs, hne, he, hrs, hc⟩
    · have hl : n.leaf = true := hl
      have he : n.entries = rs := he
      rw [hl, he, fsEntryFromNode_leaf ht hi hk, ok_bind]
      cases (recordsOf rs i t).head? <;> rfl
    · have hl : n.leaf = false := hl
      have he : n.entries = cs.map (fun c => (c.key, c.value)) := he
      have hrs : rs = allRecords cs := hrs
      subst hrs
      obtain ⟨c, hm, h1, h2⟩ := fsEntryFromNode_branch (i := i) (t := t) (cs := cs) (p := none) (fun x hx => firstKey_of (hc x hx).2.2) (by simp) hk hs hu hne
      have hm : c ∈ cs := hm
      rw [hl, he]
      rw [Option.map_none] at h1
      rw [h1, ok_bind]
      simp only [Bool.false_eq_true, if_false]
      obtain ⟨m, m1, m2⟩ := hsubs _ _ (hc c hm).1
      rw [m1, ok_bind]
      have h2 : recordsOf (allRecords cs) i t = recordsOf c.records i t := h2
      rw [h2]
      obtain ⟨a, b, rfl⟩ := List.append_of_mem hm
      have hsplit : allRecords (a ++ c :: b) = allRecords a ++ (c.records ++ allRecords b) := by
        unfold allRecords
        simp
      rw [hsplit] at hk hs hu
      exact ih (by rw [m2]; exact (hc c hm).2.1) (fun r hr => hk r (by simp [hr])) (List.pairwise_append.1 (List.pairwise_append.1 hs).2.1).1 hu.right.left

theorem fsEntry_spec {i t : Nat} (ht : t < 16) (hi : i < 2 ^ 60) {s : Storage} {xid : Nat} {rs : List Record} (h : FsHolds s xid rs) (hu : LookupOk i t rs) :
    fsEntry (volumeOf s) xid i t = ok (recordsOf rs i t).head? := by
  obtain ⟨⟨mappings, hm, d, hd, htree⟩, hk, hs⟩ := h
  unfold fsEntry
  rw [fsRootNode_ok hd, ok_bind]
  simp only
  exact fsEntryLoop_spec ht hi (fsSub_ok hm) (by rw [view_parsed]; exact htree) hk hs hu

end FsTree
end Verif
