import Verif.Lemmas.BTree
import Verif.Spec.Tree
/-! Lemmas: object map lookup -/
namespace Verif
open Res Spec
namespace BTree

def view (n : Node) : TNode := { leaf := n.leaf, entries := n.entries }

/-- the key is behind the one looked for -/
def Behind (oid xid : Nat) (key : Bytes) : Prop := omOid key > oid ∨ (omOid key = oid ∧ omXid key > xid)

instance (oid xid : Nat) (key : Bytes) : Decidable (Behind oid xid key) := by unfold Behind; exact inferInstance

/-- the scan splits the entries at the first one that is behind -/
theorem omScan_spec {oid xid : Nat} {es : List Entry} (hk : ∀ e ∈ es, e.1.length = 16) (s : OmScan) :
    ∃ a b s', es = a ++ b ∧ omScan oid xid es s = ok s' ∧ (∀ e ∈ a, ¬ Behind oid xid e.1) ∧
      ((a = [] ∧ s'.previous = s.previous ∧ s'.previousIdentifier = s.previousIdentifier) ∨
        ∃ a' p, a = a' ++ [p] ∧ s'.previous = some p ∧ s'.previousIdentifier = omOid p.1) ∧
      ((b = [] ∧ ((a = [] ∧ s' = s) ∨ ∃ a' p, a = a' ++ [p] ∧ s'.entry = some p ∧ s'.identifier = omOid p.1 ∧ s'.transaction = omXid p.1)) ∨
        ∃ e b', b = e :: b' ∧ Behind oid xid e.1 ∧ s'.entry = some e ∧ s'.identifier = omOid e.1 ∧ s'.transaction = omXid e.1) := by
  induction es generalizing s with
  | nil => exact ⟨[], [], s, rfl, rfl, by simp, .inl ⟨rfl, rfl, rfl⟩, .inl ⟨rfl, .inl ⟨rfl, rfl⟩⟩⟩
  | cons e es ih =>
    have hl := hk e (by simp)
    have h1 : rdLE e.1 0 8 = ok (omOid e.1) := rdLE_field (by omega)
    have h2 : rdLE e.1 8 8 = ok (omXid e.1) := rdLE_field (by omega)
    unfold omScan
    rw [require_true (by omega), ok_bind, h1, ok_bind, h2, ok_bind]
    simp only
    by_cases hb : Behind oid xid e.1
    · refine ⟨[], e :: es, { s with entry := some e, identifier := omOid e.1, transaction := omXid e.1 }, rfl, ?_, by simp, .inl ⟨rfl, rfl, rfl⟩,
        .inr ⟨e, es, rfl, hb, rfl, rfl, rfl⟩⟩
      rcases hb with hb | hb
      · rw [if_pos hb]; rfl
      · rw [if_neg (by omega), if_pos hb]; rfl
    · have g1 : ¬ omOid e.1 > oid := fun h => hb (.inl h)
      have g2 : ¬ (omOid e.1 = oid ∧ omXid e.1 > xid) := fun h => hb (.inr h)
      rw [if_neg g1, if_neg g2]
      obtain ⟨a, b, s', i1, i2, i3, i4, i5⟩ := ih (fun x hx => hk x (by simp [hx]))
        { entry := some e, identifier := omOid e.1, transaction := omXid e.1, previous := some e, previousIdentifier := omOid e.1 }
      refine ⟨e :: a, b, s', by rw [i1]; rfl, i2, ?_, ?_, ?_⟩
      · intro x hx
        rcases List.mem_cons.1 hx with rfl | hx
        · exact hb
        · exact i3 x hx
      · right
        rcases i4 with ⟨rfl, j1, j2⟩ | ⟨a', p, rfl, j1, j2⟩
        · exact ⟨[], e, rfl, j1, j2⟩
        · exact ⟨e :: a', p, rfl, j1, j2⟩
      · rcases i5 with ⟨hb', j⟩ | j
        · refine .inl ⟨hb', .inr ?_⟩
          rcases j with ⟨rfl, rfl⟩ | ⟨a', p, rfl, j1, j2⟩
          · exact ⟨[], e, rfl, rfl, rfl, rfl⟩
          · exact ⟨e :: a', p, rfl, j1, j2⟩
        · exact .inr j

theorem omLt_of_not_behind {oid xid : Nat} {a b : Bytes} (h : omLt a b) (hb : ¬ Behind oid xid b) : ¬ Behind oid xid a := by
  unfold omLt at h
  unfold Behind at *
  omega

theorem behind_of_omLt {oid xid : Nat} {a b : Bytes} (h : omLt a b) (hb : Behind oid xid a) : Behind oid xid b := by
  unfold omLt at h
  unfold Behind at *
  omega

/-- a leaf -/
theorem omEntryFromNode_leaf {n : Node} {oid xid : Nat} (h0 : oid ≠ 0) (hl : n.leaf = true) (hk : ∀ e ∈ n.entries, e.1.length = 16)
    (hs : Ascending omLt n.entries) :
    (¬ HasVersion n.entries oid xid ∧ omEntryFromNode n oid xid = ok none) ∨
    ∃ r, Newest n.entries oid xid r ∧ omEntryFromNode n oid xid = ok (some (some r)) := by
  obtain ⟨a, b, s', i1, i2, i3, i4, i5⟩ := omScan_spec (oid := oid) (xid := xid) hk
    { entry := none, identifier := 0, transaction := 0, previous := none, previousIdentifier := 0 }
  have hbeh : ∀ e ∈ b, Behind oid xid e.1 := by
    rcases i5 with ⟨rfl, _⟩ | ⟨e, b', rfl, hb, _⟩
    · simp
    · intro x hx
      rcases List.mem_cons.1 hx with rfl | hx
      · exact hb
      · unfold Ascending at hs
        rw [i1] at hs
        exact behind_of_omLt ((List.pairwise_cons.1 (List.pairwise_append.1 hs).2.1).1 x hx) hb
  unfold omEntryFromNode
  rw [i2, ok_bind, if_pos hl]
  rcases i4 with ⟨rfl, j1, j2⟩ | ⟨a', p, rfl, j1, j2⟩
  · left
    rw [j2, if_neg (by simpa using Ne.symm h0)]
    refine ⟨?_, rfl⟩
    rintro ⟨r, hr, g1, g2⟩
    rw [i1, List.nil_append] at hr
    have := hbeh r hr
    unfold Behind at this
    omega
  · rw [j2, j1]
    have hpm : p ∈ n.entries := by rw [i1]; simp
    have hpb := i3 p (by simp)
    -- every record that is not behind comes before `p`
    have hle : ∀ r ∈ n.entries, ¬ Behind oid xid r.1 → r = p ∨ omLt r.1 p.1 := by
      intro r hr hnb
      rw [i1] at hr
      rcases List.mem_append.1 hr with hr | hr
      · rcases List.mem_append.1 hr with hr | hr
        · right
          unfold Ascending at hs
          rw [i1] at hs
          have := (List.pairwise_append.1 hs).1
          exact (List.pairwise_append.1 this).2.2 r hr p (by simp)
        · exact .inl (by simpa using hr)
      · exact absurd (hbeh r hr) hnb
    by_cases hp : omOid p.1 = oid
    · rw [if_pos hp]
      right
      refine ⟨p, ⟨hpm, hp, ?_, ?_⟩, rfl⟩
      · unfold Behind at hpb; omega
      · intro r' hr' g1 g2
        have hnb : ¬ Behind oid xid r'.1 := by unfold Behind; omega
        rcases hle r' hr' hnb with rfl | h
        · omega
        · unfold omLt at h; omega
    · rw [if_neg hp]
      left
      refine ⟨?_, rfl⟩
      rintro ⟨r, hr, g1, g2⟩
      have hnb : ¬ Behind oid xid r.1 := by unfold Behind; omega
      rcases hle r hr hnb with rfl | h
      · exact hp g1
      · unfold omLt at h; unfold Behind at hpb; omega

/-- a branch node: the last child that is not behind, or the first one -/
theorem omEntryFromNode_branch {n : Node} {oid xid : Nat} (hl : n.leaf = false) (hk : ∀ e ∈ n.entries, e.1.length = 16) (hne : n.entries ≠ []) :
    ∃ a e b, n.entries = a ++ e :: b ∧ omEntryFromNode n oid xid = ok (some (some e)) ∧
      ((¬ Behind oid xid e.1 ∧ (∀ x ∈ b.head?, Behind oid xid x.1)) ∨ (a = [] ∧ Behind oid xid e.1)) := by
  obtain ⟨a, b, s', i1, i2, i3, i4, i5⟩ := omScan_spec (oid := oid) (xid := xid) hk
    { entry := none, identifier := 0, transaction := 0, previous := none, previousIdentifier := 0 }
  unfold omEntryFromNode
  rw [i2, ok_bind, if_neg (by simp [hl])]
  rcases i4 with ⟨rfl, j1, j2⟩ | ⟨a', p, rfl, j1, j2⟩
  · rcases i5 with ⟨rfl, _⟩ | ⟨e, b', rfl, hb, k1, k2, k3⟩
    · exact absurd i1 hne
    · refine ⟨[], e, b', i1, ?_, .inr ⟨rfl, hb⟩⟩
      rw [j1, k1]
      rfl
  · have hpb := i3 p (by simp)
    refine ⟨a', p, b, by rw [i1, List.append_assoc]; rfl, ?_, .inl ⟨hpb, ?_⟩⟩
    · rcases i5 with ⟨rfl, k⟩ | ⟨e, b', rfl, hb, k1, k2, k3⟩
      · rcases k with ⟨h, _⟩ | ⟨a'', p', h, k1, k2, k3⟩
        · simp at h
        · have : p' = p := by
            have := congrArg List.getLast? h
            simpa using this.symm
          subst this
          rw [j1, k1]
          split <;> rfl
      · rw [j1, k2, k3, if_neg]
        · rfl
        · intro h
          simp only [Option.isNone_some, Bool.false_eq_true, false_or] at h
          unfold Behind at hb
          omega
    · intro x hx
      rcases i5 with ⟨rfl, _⟩ | ⟨e, b', rfl, hb, _⟩
      · simp at hx
      · simp only [List.head?_cons, Option.mem_def, Option.some.injEq] at hx
        subst hx
        exact hb

theorem omLoop_spec {fetch : Nat → Res Bytes} {oid xid : Nat} (h0 : oid ≠ 0) {depth : Nat} {n : Node} {rs : List Record}
    {sub : Bytes → TNode → Prop} (hsubs : ∀ v t, sub v t → ∃ m, omSub fetch v = ok m ∧ view m = t) (ht : IsTree sub depth (view n) rs) (hs : Ascending omLt rs) (hk : ∀ r ∈ rs, r.1.length = 16) :
    (¬ HasVersion rs oid xid ∧ omLoop fetch oid xid depth n = ok none) ∨
    ∃ r, Newest rs oid xid r ∧ omLoop fetch oid xid depth n = ok (some (some r)) := by
  induction depth generalizing n rs with
  | zero => exact absurd ht (by unfold IsTree; exact id)
  | succ depth ih =>
    unfold omLoop
    unfold IsTree at ht
    rcases ht with ⟨hl, he⟩ | ⟨hl, cs, hne, he, rfl, hc⟩
    · have hl : n.leaf = true := hl
      have he : n.entries = rs := he
      subst he
      rcases omEntryFromNode_leaf (xid := xid) h0 hl hk hs with ⟨h1, h2⟩ | ⟨r, h1, h2⟩
      · left
        rw [h2]
        exact ⟨h1, rfl⟩
      · right
        refine ⟨r, h1, ?_⟩
        rw [h2]
        simp only [ok_bind]
        rw [if_pos hl]
        rfl
    · have hl : n.leaf = false := hl
      have he : n.entries = cs.map (fun c => (c.key, c.value)) := he
      -- the first record below a child
      have hfirst : ∀ c ∈ cs, ∃ r t, c.records = r :: t ∧ r.1 = c.key := by
        intro c hcm
        have := (hc c hcm).2.2
        cases hrec : c.records with
        | nil => rw [hrec] at this; simp at this
        | cons r t => rw [hrec] at this; exact ⟨r, t, rfl, by simpa using this⟩
      have hsub : ∀ c ∈ cs, ∀ r ∈ c.records, r ∈ (cs.map (·.records)).flatten := by
        intro c hcm r hr
        exact List.mem_flatten.2 ⟨c.records, List.mem_map.2 ⟨c, hcm, rfl⟩, hr⟩
      have hke : ∀ e ∈ n.entries, e.1.length = 16 := by
        intro e hem
        rw [he] at hem
        obtain ⟨c, hcm, rfl⟩ := List.mem_map.1 hem
        obtain ⟨r, t, h1, h2⟩ := hfirst c hcm
        show c.key.length = 16
        rw [← h2]
        exact hk r (hsub c hcm r (by rw [h1]; simp))
      obtain ⟨a, e, b, g1, g2, g3⟩ := omEntryFromNode_branch (oid := oid) (xid := xid) hl hke (by rw [he]; simpa using hne)
      -- the children corresponding to the split
      have hsplit : ∃ ca c cb, cs = ca ++ c :: cb ∧ e = (c.key, c.value) ∧ a = ca.map (fun c => (c.key, c.value)) ∧ b = cb.map (fun c => (c.key, c.value)) := by
        rw [he] at g1
        obtain ⟨ca, rest, h1, h2, h3⟩ := List.map_eq_append_iff.1 g1
        obtain ⟨c, cb, h4, h5, h6⟩ := List.map_eq_cons_iff.1 h3
        exact ⟨ca, c, cb, by rw [h1, h4], h5.symm, h2.symm, h6.symm⟩
      obtain ⟨ca, c, cb, rfl, rfl, rfl, rfl⟩ := hsplit
      obtain ⟨c1, c2, c3⟩ := hc c (by simp)
      obtain ⟨nd, d1, d2⟩ := hsubs _ _ c1
      rw [g2]
      simp only [ok_bind]
      rw [if_neg (by simp [hl])]
      simp only [d1, ok_bind]
      rw [← d2] at c2
      have hflat : ((ca ++ c :: cb).map (·.records)).flatten = (ca.map (·.records)).flatten ++ (c.records ++ (cb.map (·.records)).flatten) := by simp
      rw [hflat] at hs hk ⊢
      unfold Ascending at hs
      have hs1 := List.pairwise_append.1 hs
      have hs2 := List.pairwise_append.1 hs1.2.1
      have hih := ih c2 hs2.1 (fun r hr => hk r (by simp [hr]))
      -- records outside of the child are no candidates, or older than the first record of the child
      have hright : ∀ r ∈ (cb.map (·.records)).flatten, Behind oid xid r.1 := by
        rcases g3 with ⟨_, g⟩ | ⟨_, g⟩
        · cases cb with
          | nil => simp
          | cons c' cb =>
            have hb' : Behind oid xid c'.key := g (c'.key, c'.value) (by simp)
            obtain ⟨r0, t0, f1, f2⟩ := hfirst c' (by simp)
            intro r hr
            have hp := hs2.2.1
            simp only [List.map_cons, List.flatten_cons, f1, List.cons_append] at hp hr
            rcases List.mem_cons.1 hr with rfl | hr
            · rw [f2]; exact hb'
            · exact behind_of_omLt ((List.pairwise_cons.1 hp).1 r hr) (by rw [f2]; exact hb')
        · obtain ⟨r0, t0, f1, f2⟩ := hfirst c (by simp)
          intro r hr
          exact behind_of_omLt (hs2.2.2 r0 (by rw [f1]; simp) r hr) (by rw [f2]; exact g)
      have hleft : ∀ r ∈ (ca.map (·.records)).flatten, omLt r.1 c.key := by
        obtain ⟨r0, t0, f1, f2⟩ := hfirst c (by simp)
        intro r hr
        rw [← f2]
        exact hs1.2.2 r hr r0 (by rw [f1]; simp)
      obtain ⟨r0, t0, f1, f2⟩ := hfirst c (by simp)
      -- records left of the child do not matter
      have hcand : ∀ r ∈ (ca.map (·.records)).flatten, omOid r.1 = oid → omXid r.1 ≤ xid → ∃ r' ∈ c.records, omOid r'.1 = oid ∧ omXid r'.1 ≤ xid ∧ omXid r.1 ≤ omXid r'.1 := by
        intro r hr q1 q2
        have hlt := hleft r hr
        rcases g3 with ⟨g, _⟩ | ⟨g, _⟩
        · refine ⟨r0, by rw [f1]; simp, ?_⟩
          rw [f2]
          unfold omLt at hlt
          unfold Behind at g
          simp only at g
          omega
        · have hca : ca = [] := by simpa using g
          subst hca
          simp at hr
      rcases hih with ⟨h1, h2⟩ | ⟨r, h1, h2⟩
      · left
        refine ⟨?_, h2⟩
        rintro ⟨r, hr, q1, q2⟩
        rcases List.mem_append.1 hr with hr | hr
        · obtain ⟨r', hr', p1, p2, _⟩ := hcand r hr q1 q2
          exact h1 ⟨r', hr', p1, p2⟩
        · rcases List.mem_append.1 hr with hr | hr
          · exact h1 ⟨r, hr, q1, q2⟩
          · have := hright r hr
            unfold Behind at this
            omega
      · right
        refine ⟨r, ⟨by simp [h1.1], h1.2.1, h1.2.2.1, ?_⟩, h2⟩
        intro r' hr q1 q2
        rcases List.mem_append.1 hr with hr | hr
        · obtain ⟨r'', hr'', p1, p2, p3⟩ := hcand r' hr q1 q2
          have := h1.2.2.2 r'' hr'' p1 p2
          omega
        · rcases List.mem_append.1 hr with hr | hr
          · exact h1.2.2.2 r' hr q1 q2
          · have := hright r' hr
            unfold Behind at this
            omega

/-- what reading from the storage gives -/
def fetchOf (image : Nat → Option Bytes) (block : Nat) : Res Bytes :=
  match image block with
  | some d => ok d
  | none => err

theorem slice_length {d : Bytes} {off n : Nat} (h : off + n ≤ d.length) : (slice d off n).length = n := by
  unfold slice
  rw [List.length_take, List.length_drop]
  omega

/-- sizes of keys and values in an object map node -/
theorem om_lengths {d : Bytes} (v : BNode.Valid d) (hf : BNode.fixed d = true) : ∀ e ∈ BNode.entries d,
    e.1.length = 16 ∧ e.2.length = if BNode.leaf d then 16 else 8 := by
  intro e he
  obtain ⟨i, hi, rfl⟩ := List.mem_map.1 he
  have hi := List.mem_range.1 hi
  have h1 := v.key i hi
  have h2 := (v.value i hi).2
  have hk : BNode.keyLen d i = 16 := by unfold BNode.keyLen; rw [if_pos hf]
  have hv : BNode.valueLen d i = if BNode.leaf d then 16 else 8 := by unfold BNode.valueLen; rw [if_pos hf]
  refine ⟨by rw [slice_length h1, hk], ?_⟩
  show (slice d _ _).length = _
  rw [slice_length h2, hv]

theorem view_parsed (d : Bytes) : view (parsed d) = nodeOf d := by
  unfold view nodeOf Node.leaf parsed
  simp only [leaf_eq]

theorem omRoot_ok {image : Nat → Option Bytes} {block : Nat} {d : Bytes} (h : OmRoot image block d) :
    ∃ n, omRoot (fetchOf image) block = ok n ∧ view n = nodeOf d := by
  refine ⟨parsed d, ?_, view_parsed d⟩
  · unfold omRoot
    rw [require_true (by have := h.range; omega), ok_bind]
    unfold fetchOf
    rw [h.stored]
    simp only [ok_bind]
    rw [readNode_valid h.valid, ok_bind]
    unfold parsed
    simp only
    rw [require_true h.type, ok_bind, require_true h.subtype, ok_bind,
      require_true (by have h1 := root_iff.1 h.root; have h2 := fixed_iff.1 h.fixed; omega), ok_bind]
    have hfo := h.footer
    unfold footerFields at hfo
    simp only [Prod.mk.injEq] at hfo
    have : footerOf d = some { nodeSize := 4096, keySize := 16, valueSize := 16 } := by
      unfold footerOf
      rw [if_pos (root_iff.1 h.root), hfo.1, hfo.2.1, hfo.2.2]
    rw [this]
    simp only
    rw [require_true trivial]
    rfl

theorem omSub_ok {image : Nat → Option Bytes} (v : Bytes) (t : TNode) (h : OmChild image v t) : ∃ m, omSub (fetchOf image) v = ok m ∧ view m = t := by
  obtain ⟨hl, d, h, rfl⟩ := h
  refine ⟨parsed d, ?_, view_parsed d⟩
  · unfold omSub
    rw [require_true hl, ok_bind, rdLE_field (by omega), ok_bind]
    unfold omSubNode
    rw [require_true (by have := h.range; omega), ok_bind]
    unfold fetchOf
    rw [h.stored]
    simp only [ok_bind]
    rw [readNode_valid h.valid, ok_bind]
    unfold parsed
    simp only
    have hr : ¬ BNode.flags d % 2 ≠ 0 := fun hf => by have := root_iff.2 hf; rw [h.root] at this; cases this
    rw [require_true h.type, ok_bind, require_true h.subtype, ok_bind,
      require_true (by have h2 := fixed_iff.1 h.fixed; omega), ok_bind]
    rfl

/-- a property of the entries of all leaves holds for all records -/
theorem isTree_forall {sub : Bytes → TNode → Prop} {P : Record → Prop} (hp : ∀ v t, sub v t → t.leaf = true → ∀ e ∈ t.entries, P e) {depth : Nat} {t : TNode}
    {rs : List Record} (ht : IsTree sub depth t rs) (h0 : t.leaf = true → ∀ e ∈ t.entries, P e) : ∀ r ∈ rs, P r := by
  induction depth generalizing t rs with
  | zero => exact absurd ht (by unfold IsTree; exact id)
  | succ depth ih =>
    unfold IsTree at ht
    rcases ht with ⟨hl, rfl⟩ | ⟨hl, cs, hne, he, rfl, hc⟩
    · exact h0 hl
    · intro r hr
      obtain ⟨l, hl, hr⟩ := List.mem_flatten.1 hr
      obtain ⟨c, hcm, rfl⟩ := List.mem_map.1 hl
      exact ih (hc c hcm).2.1 (hp _ _ (hc c hcm).1) r hr

theorem omTree_lengths {image : Nat → Option Bytes} {block : Nat} {rs : List Record} (h : OmTree image block rs) :
    ∀ r ∈ rs, r.1.length = 16 ∧ r.2.length = 16 := by
  obtain ⟨⟨d, h1, h2⟩, _⟩ := h
  refine isTree_forall ?_ h2 ?_
  · rintro v t ⟨_, d', h', rfl⟩ hl e he
    have := om_lengths h'.valid h'.fixed e he
    have hl : BNode.leaf d' = true := hl
    rwa [if_pos hl] at this
  · intro hl e he
    have := om_lengths h1.valid h1.fixed e he
    have hl : BNode.leaf d = true := hl
    rwa [if_pos hl] at this

theorem omLookup_spec {image : Nat → Option Bytes} {block : Nat} {rs : List Record} (h : OmTree image block rs) {oid xid : Nat} (h0 : oid ≠ 0) :
    (¬ HasVersion rs oid xid ∧ omLookup (fetchOf image) block oid xid = ok none) ∨
    ∃ r, Newest rs oid xid r ∧ omLookup (fetchOf image) block oid xid = ok (some (some r)) := by
  have hlen := omTree_lengths h
  obtain ⟨⟨d, h1, h2⟩, hs⟩ := h
  obtain ⟨n, h3, h4⟩ := omRoot_ok h1
  unfold omLookup
  rw [h3, ok_bind]
  exact omLoop_spec h0 omSub_ok (h4 ▸ h2) hs (fun r hr => (hlen r hr).1)

end BTree
end Verif
