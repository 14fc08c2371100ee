import Verif.Spec.Directory
import Verif.Lemmas.NameLookup
import Verif.Lemmas.NameHash
import Verif.Lemmas.NameCompare
/-! Lookup of names in directories -/
namespace Verif
open Res Spec
namespace NameLookup
open BTree FsTree Name Records

/-- a decoder reads well-formed UTF-8 -/
structure ReadsUtf8 (dn : Decoder UInt8) : Prop where
  decodes : ∀ cs : List Nat, (∀ c ∈ cs, Scalar c ∧ c ≠ 0) → Decodes dn (Utf8.encode cs) cs []
  nul : dn.isNul 0 = true

theorem readsUtf8_utf8 : ReadsUtf8 utf8 := ⟨fun cs h => by simpa using decodes_utf8 cs (fun c hc => (h c hc).1) [], rfl⟩

theorem nameOf_stored {dn : Decoder UInt8} (hd : ReadsUtf8 dn) {name : List Nat} (h : ∀ c ∈ name, Scalar c ∧ c ≠ 0) : NameOf dn (storedName name) name := by
  unfold NameOf storedName stripNul
  rw [List.getLast?_append]
  simp only [List.getLast?_singleton, Option.some_or]
  rw [if_pos hd.nul, List.dropLast_concat]
  exact hd.decodes name h

theorem spec_nameHash_lt (ci : Bool) (name : List Nat) : Spec.nameHash ci name < 2 ^ 22 := Nat.mod_lt _ (by decide)

/-- the string that is looked up -/
structure Query {α : Type} (dq : Decoder α) (f : NameFormat) (entries : List DirEntry) (str : List α) (q : List Nat) (strHash : Nat) : Prop where
  name : NameOf dq str q
  hash : nameHash dq f.caseInsensitive str = ok strHash
  agrees : f.hashed = true → strHash = hashOf f q
  nonzero : f.hashed = true → hashOf f q ≠ 0 ∧ ∀ e ∈ entries, hashOf f e.name ≠ 0
  covered : ∀ c ∈ q, excluded c = false
  others : ∀ e ∈ entries, hashOf f e.name = hashOf f q → ∀ c ∈ e.name, excluded c = false

theorem keyOrder_entry {α : Type} {dn : Decoder UInt8} (hd : ReadsUtf8 dn) {dq : Decoder α} {f : NameFormat} {entries : List DirEntry} {str : List α} {q : List Nat}
    {strHash : Nat} (hq : Query dq f entries str q strHash) (folding : Bool) (parent : Nat) {e : DirEntry} (he : e ∈ entries) (hv : e.Valid) :
    ∃ o, keyOrder dn dq folding str strHash (e.record f parent).1 = ok o ∧
      (o = .less ↔ hashOf f q < hashOf f e.name ∨
        (hashOf f q = hashOf f e.name ∧ nameKey (compareForm folding) q < nameKey (compareForm folding) e.name)) ∧
      (o = .equal ↔ hashOf f q = hashOf f e.name ∧ nameKey (compareForm folding) q = nameKey (compareForm folding) e.name) := by
  have hlen : (storedName e.name).length = (Utf8.encode e.name).length + 1 := by simp [storedName]
  have hs := hv.size
  have hne : storedName e.name ≠ [] := by simp [storedName]
  obtain ⟨o, h1, h2⟩ := compareName_key dn dq folding (compareForm folding) (storedName e.name) str e.name q hne (nameOf_stored hd hv.name) hq.name
    (fun c _ => compareForm_eq folding c) (fun c _ => compareForm_eq folding c)
  unfold keyOrder DirEntry.record
  cases hf : f.hashed with
  | false =>
    simp only [Bool.false_eq_true, if_false]
    rw [readDirectoryKey_plain (by omega) (by omega), ok_bind]
    simp only
    unfold compareRecord
    rw [if_neg (by simp), if_neg (by simp)]
    refine ⟨o, h1, ?_, ?_⟩
    · rw [ordered_less h2]; simp [hashOf, hf]
    · rw [ordered_equal h2]; simp [hashOf, hf]
  | true =>
    simp only [if_true]
    have hlt : hashOf f e.name < 2 ^ 22 := by simp only [hashOf, hf, if_true]; exact spec_nameHash_lt _ _
    rw [readDirectoryKey_hashed (by omega) (by omega) hlt, ok_bind]
    simp only
    have ha := hq.agrees hf
    obtain ⟨n1, n2⟩ := hq.nonzero hf
    have n2 := n2 e he
    rw [ha]
    unfold compareRecord
    by_cases c1 : hashOf f q < hashOf f e.name
    · rw [if_pos ⟨n2, n1, c1⟩]
      exact ⟨_, rfl, by simp [c1], by simp; omega⟩
    · rw [if_neg (fun h => c1 h.2.2)]
      by_cases c2 : hashOf f q > hashOf f e.name
      · rw [if_pos ⟨n2, n1, c2⟩]
        exact ⟨_, rfl, by simp; omega, by simp; omega⟩
      · rw [if_neg (fun h => c2 h.2.2)]
        have heq : hashOf f q = hashOf f e.name := by omega
        refine ⟨o, h1, ?_, ?_⟩
        · rw [ordered_less h2]; simp [heq]
        · rw [ordered_equal h2]; simp [heq]

/-- how the string compares with a key -/
def orderOf {α : Type} (dn : Decoder UInt8) (dq : Decoder α) (folding : Bool) (str : List α) (strHash : Nat) (key : Bytes) : Order :=
  match keyOrder dn dq folding str strHash key with
  | ok o => o
  | _ => .equal

theorem orderOf_entry {α : Type} {dn : Decoder UInt8} (hd : ReadsUtf8 dn) {dq : Decoder α} {f : NameFormat} {entries : List DirEntry} {str : List α} {q : List Nat}
    {strHash : Nat} (hq : Query dq f entries str q strHash) (folding : Bool) (parent : Nat) {e : DirEntry} (he : e ∈ entries) (hv : e.Valid) :
    keyOrder dn dq folding str strHash (e.record f parent).1 = ok (orderOf dn dq folding str strHash (e.record f parent).1) ∧
      (orderOf dn dq folding str strHash (e.record f parent).1 = .less ↔ hashOf f q < hashOf f e.name ∨
        (hashOf f q = hashOf f e.name ∧ nameKey (compareForm folding) q < nameKey (compareForm folding) e.name)) ∧
      (orderOf dn dq folding str strHash (e.record f parent).1 = .equal ↔
        hashOf f q = hashOf f e.name ∧ nameKey (compareForm folding) q = nameKey (compareForm folding) e.name) := by
  obtain ⟨o, h1, h2, h3⟩ := keyOrder_entry hd hq folding parent he hv
  have e1 : orderOf dn dq folding str strHash (e.record f parent).1 = o := by unfold orderOf; rw [h1]
  rw [e1]
  exact ⟨h1, h2, h3⟩

theorem compareForm_decomposition {c : Nat} (h : excluded c = false) : compareForm false c = Unicode.decomposition c := by
  have h1 := compareForm_eq false c
  unfold compareMapping at h1
  rw [if_neg (by simp), decompose_agrees c h] at h1
  exact (Res.ok.inj h1).symm

theorem nameKey_congr {f g : Nat → List Nat} {s : List Nat} (h : ∀ c ∈ s, f c = g c) : nameKey f s = nameKey g s := by
  induction s with
  | nil => rfl
  | cons c s ih =>
    simp only [nameKey, List.flatMap_cons]
    rw [h c (List.mem_cons_self ..)]
    have := ih (fun c hc => h c (List.mem_cons_of_mem _ hc))
    simp only [nameKey] at this
    rw [this]

theorem nameKey_decomposition {s : List Nat} (h : ∀ c ∈ s, excluded c = false) : nameKey (compareForm false) s = nameKey Unicode.decomposition s :=
  nameKey_congr (fun c hc => compareForm_decomposition (h c hc))

theorem mem_of_records {rs : List Record} {f : NameFormat} {parent : Nat} {entries : List DirEntry} (h : Directory rs f parent entries) {r : Record} (hr : r ∈ rs)
    (hi : IsOf parent 9 r) : ∃ e ∈ entries, r = e.record f parent := by
  have : r ∈ recordsOf rs parent 9 := by unfold recordsOf; rw [List.mem_filter]; exact ⟨hr, decide_eq_true hi⟩
  rw [h.records, List.mem_map] at this
  obtain ⟨e, he, rfl⟩ := this
  exact ⟨e, he, rfl⟩

/-- what lookup needs of the order of a directory -/
theorem directory_monotone {α : Type} {dn : Decoder UInt8} (hd : ReadsUtf8 dn) {dq : Decoder α} {f : NameFormat} {entries : List DirEntry} {str : List α} {q : List Nat}
    {strHash : Nat} (hq : Query dq f entries str q strHash) {rs : List Record} {parent : Nat} (h : Directory rs f parent entries) :
    Monotone parent (orderOf dn dq false str strHash) rs := by
  unfold Monotone
  have hp : (recordsOf rs parent 9).Pairwise (fun a b => orderOf dn dq false str strHash a.1 = .less → orderOf dn dq false str strHash b.1 = .less) := by
    rw [h.records, List.pairwise_map]
    have ho := h.ordered
    refine List.Pairwise.imp_of_mem (fun {a b} ha hb hab => ?_) ho
    have ea := (orderOf_entry hd hq false parent ha (h.valid a ha)).2.1
    have eb := (orderOf_entry hd hq false parent hb (h.valid b hb)).2.1
    rw [ea, eb]
    have kq := nameKey_decomposition hq.covered
    rintro (l | ⟨l1, l2⟩)
    · rcases hab with g | ⟨g, _⟩
      · exact .inl (by omega)
      · exact .inl (by omega)
    · rcases hab with g | ⟨g1, g2⟩
      · exact .inl (by omega)
      · refine .inr ⟨by omega, ?_⟩
        rw [← nameKey_decomposition (hq.others a ha l1.symm), ← nameKey_decomposition (hq.others b hb (by omega))] at g2
        exact List.lt_trans l2 g2
  unfold recordsOf at hp
  rw [List.pairwise_filter] at hp
  refine hp.imp (fun {a b} hab ha hb => hab (decide_eq_true ha) (decide_eq_true hb))

theorem directory_order {α : Type} {dn : Decoder UInt8} (hd : ReadsUtf8 dn) {dq : Decoder α} {f : NameFormat} {entries : List DirEntry} {str : List α} {q : List Nat}
    {strHash : Nat} (hq : Query dq f entries str q strHash) {rs : List Record} {parent : Nat} (h : Directory rs f parent entries) (folding : Bool) :
    ∀ r ∈ rs, IsOf parent 9 r → keyOrder dn dq folding str strHash r.1 = ok (orderOf dn dq folding str strHash r.1) := by
  intro r hr hi
  obtain ⟨e, he, rfl⟩ := mem_of_records h hr hi
  exact (orderOf_entry hd hq folding parent he (h.valid e he)).1

theorem directory_first {rs : List Record} {f : NameFormat} {parent : Nat} {entries : List DirEntry} (h : Directory rs f parent entries)
    (hs : rs.Pairwise (fun a b => fsLe a.1 b.1)) (cmp : Bytes → Order) : ∀ r ∈ rs.head?, NotBehind parent cmp r.1 := by
  obtain ⟨x, hx, hi⟩ := h.inode
  intro r hr
  cases rs with
  | nil => simp at hx
  | cons y rs =>
    simp only [List.head?_cons, Option.mem_def, Option.some.injEq] at hr
    subst hr
    have hlt : fsId y.1 < parent ∨ (fsId y.1 = parent ∧ fsType y.1 < 9) := by
      unfold IsOf at hi
      rcases List.mem_cons.1 hx with rfl | hx
      · exact .inr ⟨hi.1, by omega⟩
      · have := (List.pairwise_cons.1 hs).1 x hx
        unfold fsLe at this
        omega
    refine ⟨?_, fun h' => ?_⟩
    · unfold fsOver
      omega
    · omega

/-- the record of an entry -/
def recordOf (f : NameFormat) (e : DirEntry) : DirectoryRecord :=
  { name := storedName e.name, hash := hashOf f e.name, identifier := e.identifier, added := e.added }

theorem readDirectoryRecord_entry {f : NameFormat} {parent : Nat} {e : DirEntry} (hv : e.Valid) : readDirectoryRecord (e.record f parent) = ok (recordOf f e) := by
  have hlen : (storedName e.name).length = (Utf8.encode e.name).length + 1 := by simp [storedName]
  have hs := hv.size
  unfold readDirectoryRecord DirEntry.record
  cases hf : f.hashed with
  | false =>
    simp only [Bool.false_eq_true, if_false]
    rw [readDirectoryKey_plain (by omega) (by omega), ok_bind]
    simp only
    rw [readDirectoryValue_ok hv.identifier hv.added hv.fields hv.value]
    simp [recordOf, hashOf, hf]
  | true =>
    simp only [if_true]
    have hlt : hashOf f e.name < 2 ^ 22 := by simp only [hashOf, hf, if_true]; exact spec_nameHash_lt _ _
    rw [readDirectoryKey_hashed (by omega) (by omega) hlt, ok_bind]
    simp only
    rw [readDirectoryValue_ok hv.identifier hv.added hv.fields hv.value]
    rfl

/-- position of an entry among the records -/
theorem split_records {rs : List Record} {f : NameFormat} {parent : Nat} {a b : List DirEntry} {e : DirEntry} (h : Directory rs f parent (a ++ e :: b)) :
    ∃ before after, rs = before ++ e.record f parent :: after ∧ IsOf parent 9 (e.record f parent) ∧
      (∀ x ∈ before, IsOf parent 9 x → ∃ y ∈ a, x = y.record f parent) ∧ (∀ x ∈ after, IsOf parent 9 x → ∃ y ∈ b, x = y.record f parent) := by
  have hr := h.records
  unfold recordsOf at hr
  rw [List.map_append, List.map_cons, List.filter_eq_append_iff] at hr
  obtain ⟨l1, l2, e1, e2, e3⟩ := hr
  rw [List.filter_eq_cons_iff] at e3
  obtain ⟨m1, m2, g1, g2, g3, g4⟩ := e3
  refine ⟨l1 ++ m1, m2, by rw [e1, g1]; simp, by simpa using g3, ?_, ?_⟩
  · intro x hx hi
    rcases List.mem_append.1 hx with hx | hx
    · have : x ∈ l1.filter (fun r => decide (IsOf parent 9 r)) := List.mem_filter.2 ⟨hx, decide_eq_true hi⟩
      rw [e2, List.mem_map] at this
      obtain ⟨y, hy, rfl⟩ := this
      exact ⟨y, hy, rfl⟩
    · exact absurd (decide_eq_true hi) (g2 x hx)
  · intro x hx hi
    have : x ∈ m2.filter (fun r => decide (IsOf parent 9 r)) := List.mem_filter.2 ⟨hx, decide_eq_true hi⟩
    rw [g4, List.mem_map] at this
    obtain ⟨y, hy, rfl⟩ := this
    exact ⟨y, hy, rfl⟩

/-- names with the same folded comparison key are the same names -/
theorem sameName_of_key {folding : Bool} {a b : List Nat} (ha : ∀ c ∈ a, excluded c = false ∧ c < 2 ^ 32) (hb : ∀ c ∈ b, excluded c = false ∧ c < 2 ^ 32)
    (h : nameKey (compareForm folding) a = nameKey (compareForm folding) b) : SameName folding a b := by
  have hm := nameKey_inj _ _ _ (fun c hc => compareMapping_lt folding c _ (ha c hc).2 (compareForm_eq folding c))
    (fun c hc => compareMapping_lt folding c _ (hb c hc).2 (compareForm_eq folding c)) h
  unfold SameName
  cases folding with
  | false =>
    simp only [Bool.false_eq_true, if_false]
    rw [List.map_congr_left (fun c hc => (compareForm_decomposition (ha c hc).1)), List.map_congr_left (fun c hc => (compareForm_decomposition (hb c hc).1))] at hm
    exact hm
  | true =>
    simp only [if_true]
    have hf : ∀ c, excluded c = false → caselessChar c = ((compareForm true c).flatMap Unicode.caseFolding).flatMap Unicode.decomposition := by
      intro c hc
      obtain ⟨m, hm, e⟩ := compare_caseless c hc
      have h1 := compareForm_eq true c
      rw [hm] at h1
      rw [← Res.ok.inj h1]
      exact e
    have e : ∀ l : List Nat, (∀ c ∈ l, excluded c = false ∧ c < 2 ^ 32) →
        l.map caselessChar = (l.map (compareForm true)).map (fun m => (m.flatMap Unicode.caseFolding).flatMap Unicode.decomposition) := by
      intro l hl
      rw [List.map_map]
      exact List.map_congr_left (fun c hc => hf c (hl c hc).1)
    rw [e a ha, e b hb, hm]

theorem scalar_lt {c : Nat} (h : Scalar c) : c < 2 ^ 32 := by unfold Scalar at h; omega

/-- the root node of a volume and its tree -/
theorem root_tree {s : Storage} {xid : Nat} {rs : List Record} (h : FsHolds s xid rs) {root : Node} (hr : fsRootNode (volumeOf s) = ok (some root)) :
    ∃ mappings, OmTree s.omImage s.omRoot mappings ∧ IsTree (FsChild s mappings xid) 257 (view root) rs := by
  obtain ⟨⟨mappings, hm, d, hd, htree⟩, _, _⟩ := h
  rw [fsRootNode_ok hd] at hr
  have := Option.some.inj (Res.ok.inj hr)
  subst this
  exact ⟨mappings, hm, by rw [view_parsed]; exact htree⟩

end NameLookup
end Verif
