import Verif.Spec.Browse
import Verif.Lemmas.Browse
/-!
# What is told by calls on handles is what the tree has
-/
namespace Verif
open Res
namespace Browse
open DataStream (Extent)
open FileRead (Files FileNode NodeCall NodeResult Reader Lookups)
open Session (External Failures Find EntryOk)
open Spec (ExtentAsk ExtentAnswer FileOp ValueOp ValueAnswer Identity Answered Looked Told AllTold subInode parentInode extentsTold)

variable {x : External} {f : Files}

/-- a handle to a file entry of an inode -/
structure FileIs (f : Files) (i : Records.Inode) (h : FileHandle) : Prop where
  inode : h.node.inode = i
  children : ∀ c, h.node.children = some c → FsTree.directoryRecords f.tree f.xid i.identifier = ok c
  extents : ∀ es, h.extents = some es → FsTree.fileExtents f.tree f.xid i.dataStream = ok es

structure ValueIs (s : State) (a : Records.Attribute) (h : ValueHandle) : Prop where
  value : h.value = a
  extents : h.stream.isSome → a.flags % 2 ≠ 0 → (s.values h.owner a).isSome

def ObjectIs (f : Files) (s : State) : Identity → Object → Prop
  | .file i, .file h => FileIs f i h
  | .value _ a, .value h => ValueIs s a h
  | _, _ => False

structure Rep (x : External) (f : Files) (ids : List Identity) (s : State) : Prop where
  fine : StateFine x f s
  length : ids.length = s.objects.length
  objects : ∀ (k : Nat) o, s.objects[k]? = some o → ∃ id, ids[k]? = some id ∧ ObjectIs f s id o
  values : ∀ n a es, s.values n a = some es → a.flags % 2 ≠ 0 ∧ FsTree.fileExtents f.tree f.xid a.stream = ok es

theorem ObjectIs.same {s s' : State} (hv : s'.values = s.values) {id : Identity} {o : Object} (h : ObjectIs f s id o) : ObjectIs f s' id o := by
  cases id <;> cases o
  · exact h
  · exact h
  · exact h
  · exact ⟨h.value, fun h1 h2 => by rw [hv]; exact h.extents h1 h2⟩

/-- a handle is changed -/
theorem Rep.set {ids : List Identity} {s : State} (h : Rep x f ids s) {k : Nat} {id : Identity} (hk : ids[k]? = some id) {o : Object} (ho : ObjectIs f s id o) (hf : StateFine x f (s.set k o)) : Rep x f ids (s.set k o) where
  fine := hf
  length := by rw [h.length]; exact (List.length_set ..).symm
  objects j o' hj := by
    have hj : (s.objects.set k o)[j]? = some o' := hj
    rw [List.getElem?_set] at hj
    by_cases hkj : k = j
    · subst hkj
      rw [if_pos rfl] at hj
      split at hj
      · cases hj; exact ⟨id, hk, ObjectIs.same (s := s) (s' := s.set k o) rfl ho⟩
      · cases hj
    · rw [if_neg hkj] at hj
      obtain ⟨id', h1, h2⟩ := h.objects j o' hj
      exact ⟨id', h1, ObjectIs.same (s := s) (s' := s.set k o) rfl h2⟩
  values := h.values

/-- a handle is added -/
theorem Rep.push {ids : List Identity} {s : State} (h : Rep x f ids s) {id : Identity} {o : Object} (ho : ObjectIs f s id o) (hf : StateFine x f { s with objects := s.objects ++ [o] }) :
    Rep x f (ids ++ [id]) { s with objects := s.objects ++ [o] } where
  fine := hf
  length := by simp [h.length]
  objects j o' hj := by
    have hj : (s.objects ++ [o])[j]? = some o' := hj
    have hl := h.length
    by_cases hlt : j < s.objects.length
    · rw [List.getElem?_append_left hlt] at hj
      obtain ⟨id', h1, h2⟩ := h.objects j o' hj
      exact ⟨id', by rw [List.getElem?_append_left (by omega)]; exact h1, ObjectIs.same (s := s) (s' := { s with objects := s.objects ++ [o] }) rfl h2⟩
    · rw [List.getElem?_append_right (by omega)] at hj
      have h0 : j - s.objects.length = 0 := by
        have := (List.getElem?_eq_some_iff.1 hj).1
        simp at this
        omega
      rw [h0] at hj
      cases hj
      exact ⟨id, by rw [List.getElem?_append_right (by omega), show j - ids.length = 0 by omega]; rfl, ObjectIs.same (s := s) (s' := { s with objects := s.objects ++ [o] }) rfl ho⟩
  values := h.values

theorem newFile_is (s : State) (i : Records.Inode) (r : Option Records.DirectoryRecord) : ObjectIs f s (.file i) (newFile i r) := ⟨rfl, fun _ h => (nomatch h), fun _ h => nomatch h⟩

theorem Rep.add {ids : List Identity} {s : State} (h : Rep x f ids s) (fault : Fault) {l : Res (Option (Records.Inode × Option Records.DirectoryRecord))} (hl : Safe l) :
    ∃ ids', Looked fault.tree ids (l.bind fun o => ok (o.map (·.1))) (s.add (fault.lookup l)).1 ids' ∧ Rep x f ids' (s.add (fault.lookup l)).2 := by
  unfold Fault.lookup
  by_cases hft : fault.tree = true
  · rw [if_pos hft]
    exact ⟨ids, .failed _ hft, h⟩
  · rw [if_neg hft]
    cases l with
    | ub => exact absurd rfl hl
    | err => exact ⟨ids, .error, h⟩
    | ok o =>
      cases o with
      | none => exact ⟨ids, .absent, h⟩
      | some p =>
        obtain ⟨i, r⟩ := p
        exact ⟨ids ++ [.file i], .found i, h.push (newFile_is s i r) (h.fine.push (newFile_fine i r))⟩

/-- a call on a file entry: either the handle is that of a file entry, or it is refused -/
theorem Rep.onFile {ids : List Identity} {s : State} (h : Rep x f ids s) (k : Nat) {g : FileHandle → Res Answer × State} {P : Records.Inode → Res Answer → List Identity → Prop}
    (hg : ∀ i fh, ids[k]? = some (.file i) → s.objects[k]? = some (.file fh) → FileIs f i fh → FileFine x f fh → ∃ ids', P i (g fh).1 ids' ∧ Rep x f ids' (g fh).2) :
    ∃ ids', (match ids[k]? with
      | some (.file i) => P i (Browse.onFile s k g).1 ids'
      | _ => (Browse.onFile s k g).1 = err ∧ ids' = ids) ∧ Rep x f ids' (Browse.onFile s k g).2 := by
  unfold Browse.onFile
  cases ho : s.objects[k]? with
  | none =>
    have : ids[k]? = none := by
      rw [List.getElem?_eq_none_iff] at ho ⊢
      rw [h.length]; exact ho
    rw [this]
    exact ⟨ids, ⟨rfl, rfl⟩, h⟩
  | some o =>
    obtain ⟨id, h1, h2⟩ := h.objects k o ho
    rw [h1]
    cases id with
    | file i =>
      cases o with
      | value v => exact absurd h2 (by simp [ObjectIs])
      | file fh => exact hg i fh h1 ho h2 (h.fine.objects (.file fh) (List.mem_of_getElem? ho))
    | value i a =>
      cases o with
      | file fh => exact absurd h2 (by simp [ObjectIs])
      | value v => exact ⟨ids, ⟨rfl, rfl⟩, h⟩

theorem entries_told (es : List Extent) (q : ExtentAsk) : ((Extents.entries es q).bind fun a => ok (Answer.extents a)) = extentsTold (ok es) q := by
  cases q with
  | number => rfl
  | extent i =>
    unfold extentsTold Extents.entries
    show Res.bind (Res.bind (require _) _) _ = _
    simp only [ok_bind]
    by_cases h0 : i < 0
    · rw [require_false (by simp [h0]), if_pos h0]
      rfl
    · rw [if_neg h0]
      by_cases h1 : (es.length : Int) ≤ i
      · rw [require_false (by simp [h1]), List.getElem?_eq_none (by omega)]
        rfl
      · rw [require_true (by omega)]
        show Res.bind (match es[i.toNat]? with | none => err | some e => _) _ = _
        cases es[i.toNat]? <;> rfl

/-! ## File entries -/

theorem determine_told (hx : Ok x f) (fault : Fault) {i : Records.Inode} {h : FileHandle} (hh : FileIs f i h) :
    ((FileRead.determine (lookups f fault) h.node).1 = FsTree.directoryRecords f.tree f.xid i.identifier ∨ (fault.tree = true ∧ (FileRead.determine (lookups f fault) h.node).1 = err)) ∧
      FileIs f i { h with node := (FileRead.determine (lookups f fault) h.node).2 } := by
  unfold FileRead.determine
  cases hc : h.node.children with
  | some c => exact ⟨.inl (hh.children c hc).symm, hh⟩
  | none =>
    simp only
    have hno : ∀ c, h.node.children = some c → FsTree.directoryRecords f.tree f.xid i.identifier = ok c := fun c h' => by rw [hc] at h'; cases h'
    unfold lookups
    by_cases hft : fault.tree = true
    · rw [if_pos hft]
      exact ⟨.inr ⟨hft, rfl⟩, ⟨hh.inode, hno, hh.extents⟩⟩
    · rw [if_neg hft, hh.inode]
      simp only [FileRead.lookups]
      cases hd : FsTree.directoryRecords f.tree f.xid i.identifier with
      | ub => exact absurd hd (Props.c42_safe f.tree hx.files.tree f.xid _).2.1
      | err => exact ⟨.inl rfl, ⟨hh.inode, hno, hh.extents⟩⟩
      | ok c => exact ⟨.inl rfl, ⟨rfl, fun c' h' => by cases h'; exact hd, hh.extents⟩⟩

/-- the answer and the handles after a call that may give a node -/
def nodeAnswer (s : State) : Res NodeResult → Res Answer × State
  | .ok (.number n) => (ok (.number n), s)
  | .ok (.node n) => (ok .handle, { s with objects := s.objects ++ [newFile n.inode n.record] })
  | .ok .none => (ok .none, s)
  | .err => (err, s)
  | .ub => (ub, s)

theorem nodeAnswer_looked {ids : List Identity} {s : State} (h : Rep x f ids s) {failed : Bool} {r : Res NodeResult} {l : Res (Option Records.Inode)} (hr : r ≠ ub) (hn : ∀ n, r ≠ ok (.number n))
    (hl : (failed = true ∧ r = err) ∨ l = r.bind fun n => ok (match n with | .node n => some n.inode | _ => none)) :
    ∃ ids', Looked failed ids l (nodeAnswer s r).1 ids' ∧ Rep x f ids' (nodeAnswer s r).2 := by
  cases r with
  | ub => exact absurd rfl hr
  | err =>
    rcases hl with ⟨hl, _⟩ | rfl
    · exact ⟨ids, .failed _ hl, h⟩
    · exact ⟨ids, .error, h⟩
  | ok n =>
    rcases hl with ⟨_, hl⟩ | rfl
    · cases hl
    · cases n with
      | number n => exact absurd rfl (hn n)
      | none => exact ⟨ids, .absent, h⟩
      | node n => exact ⟨ids ++ [.file n.inode], .found n.inode, h.push (newFile_is s n.inode n.record) (h.fine.push (newFile_fine n.inode n.record))⟩

theorem inode_looked (fault : Fault) (n : Nat) : (lookups f fault).inode n = FsTree.inodeByIdentifier f.tree f.xid n ∨ (fault.tree = true ∧ (lookups f fault).inode n = err) := by
  unfold lookups
  by_cases hft : fault.tree = true
  · rw [if_pos hft]; exact .inr ⟨hft, rfl⟩
  · rw [if_neg hft]; exact .inl rfl

theorem parent_told (fault : Fault) (n : FileNode) : (fault.tree = true ∧ FileRead.parentNode (lookups f fault) n = err) ∨
    parentInode f n.inode = (FileRead.parentNode (lookups f fault) n).bind fun n => ok (match n with | .node n => some n.inode | _ => none) := by
  unfold parentInode FileRead.parentNode
  by_cases h : n.inode.identifier ≤ 2
  · rw [if_pos h, if_neg (by omega)]
    exact .inr rfl
  · rw [if_neg h, if_pos (by omega)]
    rcases inode_looked (f := f) fault n.inode.parent with h1 | ⟨h1, h2⟩
    · rw [h1]
      refine .inr ?_
      cases FsTree.inodeByIdentifier f.tree f.xid n.inode.parent with
      | ub => rfl
      | err => rfl
      | ok o => cases o <;> rfl
    · rw [h2]; exact .inl ⟨h1, rfl⟩

theorem sub_told (fault : Fault) {c : List Records.DirectoryRecord} {i : Records.Inode} (hd : FsTree.directoryRecords f.tree f.xid i.identifier = ok c) (index : Int) {r : Res NodeResult}
    (hr : r = do let r ← FileRead.elementAt c index; let s ← FileRead.subNode (lookups f fault) r; return .node s) : (fault.tree = true ∧ r = err) ∨
    subInode f i index = r.bind fun n => ok (match n with | .node n => some n.inode | _ => none) := by
  subst hr
  unfold subInode FileRead.elementAt
  rw [hd, ok_bind]
  by_cases h0 : index < 0
  · rw [if_pos h0, if_pos h0]
    exact .inr rfl
  · rw [if_neg h0, if_neg h0]
    cases c[index.toNat]? with
    | none => exact .inr rfl
    | some r =>
      simp only [ok_bind]
      unfold FileRead.subNode
      rcases inode_looked (f := f) fault r.identifier with h1 | ⟨h1, h2⟩
      · rw [h1]
        refine .inr ?_
        cases FsTree.inodeByIdentifier f.tree f.xid r.identifier with
        | ub => rfl
        | err => rfl
        | ok o => cases o <;> rfl
      · rw [h2]; exact .inl ⟨h1, rfl⟩

theorem call_parts {l : Lookups} {n : FileNode} : (FileRead.call l .number n).2 = (FileRead.determine l n).2 ∧ (∀ index, (FileRead.call l (.sub index) n).2 = (FileRead.determine l n).2) ∧
    (FileRead.call l .number n).1 = (FileRead.determine l n).1.bind (fun c => ok (.number c.length)) ∧
    ∀ index, (FileRead.call l (.sub index) n).1 = (FileRead.determine l n).1.bind fun c => (do let r ← FileRead.elementAt c index; let s ← FileRead.subNode l r; return .node s) := by
  simp only [FileRead.call]
  cases FileRead.determine l n with
  | mk r m => cases r <;> exact ⟨rfl, fun _ => rfl, rfl, fun _ => rfl⟩

/-! ## Extended attributes -/

theorem attributeOf_told (hx : Ok x f) (fault : Fault) {i : Records.Inode} {h : FileHandle} (hh : FileFine x f h) (hi : h.node.inode = i) (q : Int ⊕ Bytes) :
    (∃ as, (attributeOf x f fault h q).1 ≠ err → FsTree.extendedAttributes f.tree f.xid i.identifier = ok as ∧
      match q with
      | .inl index => ∃ a, 0 ≤ index ∧ as[index.toNat]? = some a ∧ (attributeOf x f fault h q).1 = ok (some a)
      | .inr name => ((attributeOf x f fault h q).1 = ok none ∧ ∀ a ∈ as, x.compare a.name name = ok false) ∨
        ∃ before a after, as = before ++ a :: after ∧ (∀ b ∈ before, x.compare b.name name = ok false) ∧ x.compare a.name name = ok true ∧ (attributeOf x f fault h q).1 = ok (some a)) ∧
    (attributeOf x f fault h q).2.node = h.node ∧ (attributeOf x f fault h q).2.extents = h.extents := by
  subst hi
  have he := Session.env_safe hx.files hx.extents hx.compare h.node.inode
  have hw := Session.weaker_failing (FileRead.env f x.compare h.node.inode) fault.entry
  have hn := Session.need_safe he hw hh.entry
  cases q with
  | inl index =>
    simp only [attributeOf, entryEnv, AttributeRead.attributeByIndex]
    refine ⟨?_, by trivial, by trivial⟩
    revert hn
    generalize FileEntry.needAttributes (Session.failing (FileRead.env f x.compare h.node.inode) fault.entry) h.entry = r
    intro hn
    obtain ⟨r, e⟩ := r
    cases r with
    | ub => exact absurd rfl hn.1
    | err => exact ⟨[], fun h => absurd rfl h⟩
    | ok u =>
      have ha : e.attributes.isSome := hn.2.2 rfl
      simp only
      cases hea : e.attributes with
      | none => rw [hea] at ha; cases ha
      | some as =>
        simp only
        refine ⟨as, fun hne => ⟨hn.2.1.attributes as hea, ?_⟩⟩
        revert hne
        by_cases h0 : index < 0
        · rw [if_pos h0]
          exact fun h => absurd rfl h
        · rw [if_neg h0]
          cases hg : as[index.toNat]? with
          | none => exact fun h => absurd rfl h
          | some a => exact fun _ => ⟨a, by omega, rfl, rfl⟩
  | inr name =>
    simp only [attributeOf, entryEnv, FileEntry.attributeByName]
    refine ⟨?_, by trivial, by trivial⟩
    revert hn
    generalize FileEntry.needAttributes (Session.failing (FileRead.env f x.compare h.node.inode) fault.entry) h.entry = r
    intro hn
    obtain ⟨r, e⟩ := r
    cases r with
    | ub => exact absurd rfl hn.1
    | err => exact ⟨[], fun h => absurd rfl h⟩
    | ok u =>
      have ha : e.attributes.isSome := hn.2.2 rfl
      simp only
      cases hea : e.attributes with
      | none => rw [hea] at ha; cases ha
      | some as =>
        simp only
        refine ⟨as, fun hne => ⟨hn.2.1.attributes as hea, ?_⟩⟩
        clear hea ha
        revert hne
        induction as with
        | nil => exact fun _ => .inl ⟨rfl, fun _ h => nomatch h⟩
        | cons b as ih =>
          unfold FileEntry.findNamed
          have hc : (Session.failing (FileRead.env f x.compare h.node.inode) fault.entry).compare b.name name = x.compare b.name name ∨
              (Session.failing (FileRead.env f x.compare h.node.inode) fault.entry).compare b.name name = err := hw.compare _ _
          rcases hc with hc | hc
          · rw [hc]
            cases hcb : x.compare b.name name with
            | ub => exact absurd hcb (hx.compare _ _)
            | err => exact fun h => absurd rfl h
            | ok eq =>
              cases eq with
              | true => exact fun _ => .inr ⟨[], b, as, rfl, fun _ h => (nomatch h), hcb, rfl⟩
              | false =>
                intro hne
                rcases ih hne with ⟨h1, h2⟩ | ⟨before, a, after, h1, h2, h3, h4⟩
                · refine .inl ⟨h1, fun a ha => ?_⟩
                  rcases List.mem_cons.1 ha with rfl | ha
                  · exact hcb
                  · exact h2 a ha
                · refine .inr ⟨b :: before, a, after, by rw [h1]; rfl, fun c hc => ?_, h3, h4⟩
                  rcases List.mem_cons.1 hc with rfl | hc
                  · exact hcb
                  · exact h2 c hc
          · rw [hc]
            exact fun h => absurd rfl h

/-- what is kept of a value after getting its stream -/
structure Kept (f : Files) (a : Records.Attribute) (es : Option (List Extent)) : Prop where
  right : ∀ l, es = some l → a.flags % 2 ≠ 0 ∧ FsTree.fileExtents f.tree f.xid a.stream = ok l

theorem getStream_kept (fault : Fault) {a : Records.Attribute} {es : Option (List Extent)} (he : Kept f a es) :
    Kept f a (AttributeRead.getStream f a (valueEnv f fault a) es).2 ∧ (es.isSome → (AttributeRead.getStream f a (valueEnv f fault a) es).2.isSome) ∧
      (∀ h, (AttributeRead.getStream f a (valueEnv f fault a) es).1 = ok h → a.flags % 2 ≠ 0 → (AttributeRead.getStream f a (valueEnv f fault a) es).2.isSome) := by
  unfold AttributeRead.getStream
  by_cases h1 : a.flags % 2 ≠ 0
  · rw [if_pos h1]
    have hg : Kept f a (AttributeRead.getExtents (valueEnv f fault a) es).2 ∧ (es.isSome → (AttributeRead.getExtents (valueEnv f fault a) es).2.isSome) ∧
        (∀ l, (AttributeRead.getExtents (valueEnv f fault a) es).1 = ok l → (AttributeRead.getExtents (valueEnv f fault a) es).2.isSome) := by
      cases es with
      | some l => exact ⟨he, fun h => h, fun _ _ => rfl⟩
      | none =>
        unfold AttributeRead.getExtents
        simp only
        cases h2 : (valueEnv f fault a).alloc with
        | ub => exact ⟨he, fun h => h, fun _ h => nomatch h⟩
        | err => exact ⟨he, fun h => h, fun _ h => nomatch h⟩
        | ok u =>
          cases h3 : (valueEnv f fault a).btree with
          | ub => exact ⟨he, fun h => h, fun _ h => nomatch h⟩
          | err => exact ⟨he, fun h => h, fun _ h => nomatch h⟩
          | ok l =>
            refine ⟨⟨fun l' h => ?_⟩, fun _ => rfl, fun _ _ => rfl⟩
            cases h
            have h3 : (if fault.tree then err else Extents.btree f a.stream) = ok l := h3
            split at h3
            · cases h3
            · exact ⟨h1, h3⟩
    revert hg
    generalize AttributeRead.getExtents (valueEnv f fault a) es = r
    intro hg
    obtain ⟨r, es'⟩ := r
    cases r with
    | ub => exact ⟨hg.1, hg.2.1, fun _ h => nomatch h⟩
    | err => exact ⟨hg.1, hg.2.1, fun _ h => nomatch h⟩
    | ok l => exact ⟨hg.1, hg.2.1, fun _ _ _ => hg.2.2 l rfl⟩
  · rw [if_neg h1]
    split
    · exact ⟨he, fun h => h, fun _ _ h => absurd h h1⟩
    · exact ⟨he, fun h => h, fun _ _ h => absurd h h1⟩

theorem attrEntries_told {a : Records.Attribute} {es : Option (List Extent)} (he : Kept f a es) (hs : a.flags % 2 ≠ 0 → es.isSome) (q : ExtentAsk) :
    ((Extents.attrEntries es q).bind fun a => ok (Answer.extents a)) = extentsTold (if a.flags % 2 ≠ 0 then FsTree.fileExtents f.tree f.xid a.stream else ok []) q := by
  cases es with
  | some l =>
    obtain ⟨h1, h2⟩ := he.right l rfl
    rw [if_pos h1, h2]
    exact entries_told l q
  | none =>
    by_cases h1 : a.flags % 2 ≠ 0
    · cases hs h1
    · rw [if_neg h1]
      cases q with
      | number => rfl
      | extent i =>
        unfold extentsTold
        rw [ok_bind]
        show err = _
        simp

theorem valueCall_told (fault : Fault) {a : Records.Attribute} {es : Option (List Extent)} (he : Kept f a es) {h : AttributeRead.Handle} (hs : h.isSome → a.flags % 2 ≠ 0 → es.isSome) (c : ValueCall) :
    Kept f a (valueCall f fault a es h c).2.1 ∧ (es.isSome → (valueCall f fault a es h c).2.1.isSome) ∧
      ((valueCall f fault a es h c).2.2.isSome → a.flags % 2 ≠ 0 → (valueCall f fault a es h c).2.1.isSome) ∧
      match c with
      | .ask o => if o = .size then (valueCall f fault a es h c).1 = ok (.value (.size a.size)) else (∃ v, (valueCall f fault a es h c).1 = ok (.value v)) ∨ (valueCall f fault a es h c).1 = err ∨ (valueCall f fault a es h c).1 = ub
      | .extents q => (valueCall f fault a es h c).1 = err ∨ (valueCall f fault a es h c).1 = ub ∨
        (valueCall f fault a es h c).1 = extentsTold (if a.flags % 2 ≠ 0 then FsTree.fileExtents f.tree f.xid a.stream else ok []) q := by
  have hg := getStream_kept fault he
  cases c with
  | ask o =>
    simp only [valueCall]
    have tri : ∀ r : Res ValueAnswer, (∃ v, (r.bind fun a => ok (Answer.value a)) = ok (.value v)) ∨ (r.bind fun a => ok (Answer.value a)) = err ∨ (r.bind fun a => ok (Answer.value a)) = ub := by
      intro r
      cases r with
      | ok v => exact .inl ⟨v, rfl⟩
      | err => exact .inr (.inl rfl)
      | ub => exact .inr (.inr rfl)
    unfold AttributeRead.call
    by_cases ho : o = .size
    · rw [if_pos ho, if_pos ho]
      exact ⟨he, fun h => h, hs, rfl⟩
    rw [if_neg ho, if_neg ho]
    cases h with
    | some s => exact ⟨he, fun h => h, fun _ => hs rfl, tri _⟩
    | none =>
      simp only
      revert hg
      generalize AttributeRead.getStream f a (valueEnv f fault a) es = r
      intro hg
      obtain ⟨r, es'⟩ := r
      cases r with
      | ub => exact ⟨hg.1, hg.2.1, fun h => (nomatch h), tri _⟩
      | err => exact ⟨hg.1, hg.2.1, fun h => (nomatch h), tri _⟩
      | ok m =>
        cases m with
        | none => exact ⟨hg.1, hg.2.1, fun h => (nomatch h), tri _⟩
        | some s => exact ⟨hg.1, hg.2.1, fun _ => hg.2.2 _ rfl, tri _⟩
  | extents q =>
    cases h with
    | some s => exact ⟨he, fun h => h, hs, .inr (.inr (attrEntries_told he (hs rfl) q))⟩
    | none =>
      simp only [valueCall]
      revert hg
      generalize AttributeRead.getStream f a (valueEnv f fault a) es = r
      intro hg
      obtain ⟨r, es'⟩ := r
      cases r with
      | ub => exact ⟨hg.1, hg.2.1, fun h => (nomatch h), .inr (.inl rfl)⟩
      | err => exact ⟨hg.1, hg.2.1, fun h => (nomatch h), .inl rfl⟩
      | ok m => exact ⟨hg.1, hg.2.1, fun _ => hg.2.2 _ rfl, .inr (.inr (attrEntries_told hg.1 (hg.2.2 _ rfl) q))⟩

/-! ## All calls -/

theorem Rep.onValue {ids : List Identity} {s : State} (hx : Ok x f) (h : Rep x f ids s) (fault : Fault) (k : Nat) (c : ValueCall) :
    (match ids[k]? with
      | some (.value _ a) =>
        match c with
        | .ask o => if o = .size then (Browse.onValue f fault s k c).1 = ok (.value (.size a.size)) else (∃ v, (Browse.onValue f fault s k c).1 = ok (.value v)) ∨ (Browse.onValue f fault s k c).1 = err
        | .extents q => (Browse.onValue f fault s k c).1 = err ∨ (Browse.onValue f fault s k c).1 = extentsTold (if a.flags % 2 ≠ 0 then FsTree.fileExtents f.tree f.xid a.stream else ok []) q
      | _ => (Browse.onValue f fault s k c).1 = err) ∧ Rep x f ids (Browse.onValue f fault s k c).2 := by
  have hfine := onValue_safe hx fault h.fine k c
  revert hfine
  unfold Browse.onValue
  cases ho : s.objects[k]? with
  | none =>
    have : ids[k]? = none := by
      rw [List.getElem?_eq_none_iff] at ho ⊢
      rw [h.length]; exact ho
    rw [this]
    exact fun _ => ⟨rfl, h⟩
  | some o =>
    obtain ⟨id, h1, h2⟩ := h.objects k o ho
    rw [h1]
    cases id with
    | file i =>
      cases o with
      | value v => exact absurd h2 (by simp [ObjectIs])
      | file fh => exact fun _ => ⟨rfl, h⟩
    | value i a =>
      cases o with
      | file fh => exact absurd h2 (by simp [ObjectIs])
      | value v =>
        have h2 : ValueIs s a v := h2
        obtain ⟨ov, va, st⟩ := v
        have hva : va = a := h2.value
        subst hva
        simp only
        intro hfine
        have hk := valueCall_told (f := f) fault (a := va) (es := s.values ov va) ⟨fun l hl => h.values ov va l hl⟩ (h := st) (fun h3 h4 => h2.extents h3 h4) c
        refine ⟨?_, hfine.2, ?_, ?_, ?_⟩
        · cases c with
          | ask o =>
            simp only
            have := hk.2.2.2
            simp only at this
            split
            · rename_i ho; rw [if_pos ho] at this; exact this
            · rename_i ho
              rw [if_neg ho] at this
              rcases this with h | h | h
              · exact .inl h
              · exact .inr h
              · exact absurd h hfine.1
          | extents q =>
            rcases hk.2.2.2 with h | h | h
            · exact .inl h
            · exact absurd h hfine.1
            · exact .inr h
        · rw [h.length]; exact (List.length_set ..).symm
        · have more : ∀ n b, (s.values n b).isSome → (if n = ov ∧ b = va then (valueCall f fault va (s.values ov va) st c).2.1 else s.values n b).isSome := by
            intro n b hb
            split
            · rename_i he
              rw [he.1, he.2] at hb
              exact hk.2.1 hb
            · exact hb
          intro j o' hj
          have hj : (s.objects.set k _)[j]? = some o' := hj
          rw [List.getElem?_set] at hj
          by_cases hkj : k = j
          · subst hkj
            rw [if_pos rfl] at hj
            split at hj
            · cases hj
              refine ⟨_, h1, rfl, fun h3 h4 => ?_⟩
              show ((if ov = ov ∧ va = va then _ else _ : Option (List Extent))).isSome
              rw [if_pos ⟨rfl, rfl⟩]
              exact hk.2.2.1 h3 h4
            · cases hj
          · rw [if_neg hkj] at hj
            obtain ⟨id', g1, g2⟩ := h.objects j o' hj
            refine ⟨id', g1, ?_⟩
            cases id' <;> cases o'
            · exact g2
            · exact g2
            · exact g2
            · exact ⟨g2.value, fun h3 h4 => more _ _ (g2.extents h3 h4)⟩
        · intro n b es hb
          have hb : (if n = ov ∧ b = va then (valueCall f fault va (s.values ov va) st c).2.1 else s.values n b) = some es := hb
          split at hb
          · rename_i he
            rw [he.2]
            exact hk.1.right es hb
          · exact h.values n b es hb

theorem fileCall_keeps (fault : Fault) {i : Records.Inode} {h : FileHandle} (hh : FileIs f i h) (c : FileCall) : FileIs f i (fileCall x f fault h c).2 := by
  cases c with
  | entry c => exact ⟨hh.inode, hh.children, hh.extents⟩
  | content o =>
    have key : (openReader x f fault h).2.node = h.node ∧ (openReader x f fault h).2.extents = h.extents := by
      unfold openReader
      split
      · exact ⟨rfl, rfl⟩
      · simp only
        split
        · split <;> exact ⟨rfl, rfl⟩
        · split <;> exact ⟨rfl, rfl⟩
        · exact ⟨rfl, rfl⟩
        · exact ⟨rfl, rfl⟩
    simp only [fileCall]
    revert key
    generalize openReader x f fault h = r
    intro key
    obtain ⟨r, h'⟩ := r
    have hk : FileIs f i h' := ⟨by rw [key.1]; exact hh.inode, by rw [key.1]; exact hh.children, by rw [key.2]; exact hh.extents⟩
    cases r with
    | ok r => exact ⟨hk.inode, hk.children, hk.extents⟩
    | err => exact hk
    | ub => exact hk
  | extents q =>
    refine ⟨hh.inode, hh.children, fun es hes => ?_⟩
    have hes : (Extents.entryCall (fault.lookup (Extents.btree f h.node.inode.dataStream)) q h.extents).2 = some es := hes
    unfold Extents.entryCall at hes
    cases he : h.extents with
    | some l => rw [he] at hes; cases hes; exact hh.extents _ he
    | none =>
      rw [he] at hes
      simp only at hes
      unfold Fault.lookup at hes
      by_cases hft : fault.tree = true
      · rw [if_pos hft] at hes; cases hes
      · rw [if_neg hft, hh.inode] at hes
        cases hb : Extents.btree f i.dataStream with
        | ub => rw [hb] at hes; cases hes
        | err => rw [hb] at hes; cases hes
        | ok l => rw [hb] at hes; cases hes; exact hb

theorem extents_told (fault : Fault) {i : Records.Inode} {h : FileHandle} (hh : FileIs f i h) (q : ExtentAsk) :
    Answered fault.tree (extentsTold (FsTree.fileExtents f.tree f.xid i.dataStream) q) (fileCall x f fault h (.extents q)).1 := by
  simp only [fileCall]
  unfold Extents.entryCall
  cases he : h.extents with
  | some l =>
    rw [hh.extents l he]
    exact .inl (entries_told l q)
  | none =>
    simp only
    unfold Fault.lookup
    by_cases hft : fault.tree = true
    · rw [if_pos hft]; exact .inr ⟨hft, rfl⟩
    · rw [if_neg hft, hh.inode]
      refine .inl ?_
      show _ = extentsTold (Extents.btree f i.dataStream) q
      cases Extents.btree f i.dataStream with
      | ub => rfl
      | err => rfl
      | ok l => exact entries_told l q

theorem step_node {α : Type} [DecidableEq α] (dn : Name.Decoder UInt8) (dq : Name.Decoder α) (separator : α) (fault : Fault) (s : State) (k : Nat) (c : NodeCall) : step x dn dq separator f fault s (.node k c) =
    onFile s k fun h => nodeAnswer (s.set k (.file { h with node := (FileRead.call (lookups f fault) c h.node).2 })) (FileRead.call (lookups f fault) c h.node).1 := by
  simp only [step]
  congr

theorem step_told {α : Type} [DecidableEq α] (hx : Ok x f) (dn : Name.Decoder UInt8) (dq : Name.Decoder α) (separator : α) (fault : Fault) {ids : List Identity} {s : State} (h : Rep x f ids s) (c : Step α) :
    ∃ ids', Told x dn dq separator f ids fault (step x dn dq separator f fault s c).1 ids' c ∧ Rep x f ids' (step x dn dq separator f fault s c).2 := by
  have hsafe := step_safe hx dn dq separator fault h.fine c
  cases c with
  | find q =>
    have := h.add fault (find_safe dn dq separator hx.files q)
    cases q with
    | path p => exact this
    | identifier n =>
      have e : ((find dn dq separator f (.identifier n)).bind fun o => ok (o.map (·.1))) = FsTree.inodeByIdentifier f.tree f.xid n := by
        show Res.bind (Res.bind (FsTree.inodeByIdentifier f.tree f.xid n) _) _ = _
        cases FsTree.inodeByIdentifier f.tree f.xid n with
        | ub => rfl
        | err => rfl
        | ok o => cases o <;> rfl
      rw [e] at this
      exact this
  | named k name =>
    exact h.onFile k fun i fh h1 h2 h3 h4 => by
      have := h.add fault (Props.c22_safe dn dq separator f.folding hx.files.tree f.xid i.identifier name)
      unfold named
      rw [h3.inode]
      exact this
  | node k c =>
    have key : ∀ i fh, ids[k]? = some (.file i) → s.objects[k]? = some (.file fh) → FileIs f i fh → FileFine x f fh →
        ∀ m, FileIs f i { fh with node := m } → m.inode = i → Rep x f ids (s.set k (.file { fh with node := m })) := by
      intro i fh h1 h2 h3 h4 m h5 h6
      refine h.set h1 h5 (h.fine.set ⟨?_, h4.reader⟩)
      show EntryOk (FileRead.env f x.compare m.inode) fh.entry
      rw [h6, ← h3.inode]; exact h4.entry
    rw [step_node]
    cases c with
    | parent =>
      exact h.onFile k (P := fun i r ids' => Looked fault.tree ids (parentInode f i) r ids') fun i fh h1 h2 h3 h4 => by
        have hn := nodeCall_safe (lookups_safe hx.files fault) .parent fh.node
        have hr := key i fh h1 h2 h3 h4 fh.node h3 h3.inode
        refine nodeAnswer_looked (r := FileRead.parentNode (lookups f fault) fh.node) hr hn.1 (fun n => ?_) ?_
        · unfold FileRead.parentNode
          split
          · split <;> simp
          · simp
        · have := parent_told (f := f) fault fh.node
          rw [h3.inode] at this
          exact this
    | number =>
      exact h.onFile k (P := fun i r ids' => Answered fault.tree ((FsTree.directoryRecords f.tree f.xid i.identifier).bind fun l => ok (.number l.length)) r ∧ ids' = ids) fun i fh h1 h2 h3 h4 => by
        obtain ⟨p1, _, p3, _⟩ := call_parts (l := lookups f fault) (n := fh.node)
        obtain ⟨d1, d2⟩ := determine_told hx fault h3
        have hn := nodeCall_safe (lookups_safe hx.files fault) .number fh.node
        have hr := key i fh h1 h2 h3 h4 (FileRead.call (lookups f fault) .number fh.node).2 (by rw [p1]; exact d2) (by rw [hn.2]; exact h3.inode)
        rw [p3] at hn ⊢
        refine ⟨ids, ⟨?_, rfl⟩, ?_⟩
        · rcases d1 with d1 | ⟨d0, d1⟩
          · rw [d1] at hn ⊢
            cases hd : FsTree.directoryRecords f.tree f.xid i.identifier with
            | ub => rw [hd] at hn; exact absurd rfl hn.1
            | err => exact .inl rfl
            | ok l => exact .inl rfl
          · rw [d1]; exact .inr ⟨d0, rfl⟩
        · cases hd : (FileRead.determine (lookups f fault) fh.node).1 with
          | ub => exact hr
          | err => exact hr
          | ok l => exact hr
    | sub index =>
      exact h.onFile k (P := fun i r ids' => Looked fault.tree ids (subInode f i index) r ids') fun i fh h1 h2 h3 h4 => by
        obtain ⟨_, p2, _, p4⟩ := call_parts (l := lookups f fault) (n := fh.node)
        obtain ⟨d1, d2⟩ := determine_told hx fault h3
        have hn := nodeCall_safe (lookups_safe hx.files fault) (.sub index) fh.node
        have hr := key i fh h1 h2 h3 h4 (FileRead.call (lookups f fault) (.sub index) fh.node).2 (by rw [p2 index]; exact d2) (by rw [hn.2]; exact h3.inode)
        refine nodeAnswer_looked hr hn.1 (fun n => ?_) ?_
        · rw [p4 index]
          intro hc
          cases hd : (FileRead.determine (lookups f fault) fh.node).1 with
          | ub => rw [hd] at hc; cases hc
          | err => rw [hd] at hc; cases hc
          | ok l =>
            rw [hd] at hc
            obtain ⟨_, _, hc⟩ := bind_eq_ok.1 hc
            obtain ⟨_, _, hc⟩ := bind_eq_ok.1 hc
            obtain ⟨_, _, hc⟩ := bind_eq_ok.1 hc
            cases hc
        · rw [p4 index]
          rcases d1 with d1 | ⟨d0, d1⟩
          · rw [d1]
            cases hd : FsTree.directoryRecords f.tree f.xid i.identifier with
            | ub => exact absurd hd (Props.c42_safe f.tree hx.files.tree f.xid _).2.1
            | err =>
              refine .inr ?_
              unfold subInode
              rw [hd]
              rfl
            | ok l => exact sub_told fault hd index rfl
          · rw [d1]; exact .inl ⟨d0, rfl⟩
  | entry k c =>
    exact h.onFile k (P := fun i r ids' => (r = ok .done ∨ r = err) ∧ ids' = ids) fun i fh h1 h2 h3 h4 => by
      have hs := fileCall_safe hx fault h4 (.entry c)
      refine ⟨ids, ⟨?_, rfl⟩, h.set (o := .file (fileCall x f fault fh (.entry c)).2) h1 (fileCall_keeps fault h3 (.entry c)) (h.fine.set (o := .file (fileCall x f fault fh (.entry c)).2) hs.2)⟩
      simp only [fileCall] at hs ⊢
      cases hr : (Session.call (entryEnv x f fault fh.node.inode) c fh.entry).1 with
      | ub => rw [hr] at hs; exact absurd rfl hs.1
      | err => exact .inr rfl
      | ok u => exact .inl rfl
  | content k o =>
    exact h.onFile k (P := fun i r ids' => ((∃ d, r = ok (.bytes d)) ∨ r = err) ∧ ids' = ids) fun i fh h1 h2 h3 h4 => by
      have hs := fileCall_safe hx fault h4 (.content o)
      refine ⟨ids, ⟨?_, rfl⟩, h.set (o := .file (fileCall x f fault fh (.content o)).2) h1 (fileCall_keeps fault h3 (.content o)) (h.fine.set (o := .file (fileCall x f fault fh (.content o)).2) hs.2)⟩
      revert hs
      simp only [fileCall]
      generalize openReader x f fault fh = r
      obtain ⟨r, h'⟩ := r
      cases r with
      | ub => exact fun hs => absurd rfl hs.1
      | err => exact fun _ => .inr rfl
      | ok r =>
        simp only
        cases (FileRead.step x.codec o r).1 with
        | ub => exact fun hs => absurd rfl hs.1
        | err => exact fun _ => .inr rfl
        | ok d => exact fun _ => .inl ⟨d, rfl⟩
  | extents k q =>
    exact h.onFile k (P := fun i r ids' => Answered fault.tree (extentsTold (FsTree.fileExtents f.tree f.xid i.dataStream) q) r ∧ ids' = ids) fun i fh h1 h2 h3 h4 =>
      ⟨ids, ⟨extents_told (x := x) fault h3 q, rfl⟩, h.set (o := .file (fileCall x f fault fh (.extents q)).2) h1 (fileCall_keeps fault h3 (.extents q)) (h.fine.set (o := .file (fileCall x f fault fh (.extents q)).2) (fileCall_safe hx fault h4 (.extents q)).2)⟩
  | attributeAt k index =>
    exact h.onFile k (g := fun h => addAttribute x f fault s k h (.inl index)) (P := fun i r ids' => (r = err ∧ ids' = ids) ∨ ∃ as a, FsTree.extendedAttributes f.tree f.xid i.identifier = ok as ∧ 0 ≤ index ∧ as[index.toNat]? = some a ∧ r = ok .handle ∧ ids' = ids ++ [.value i a]) fun i fh h1 h2 h3 h4 => by
      obtain ⟨⟨as, h5⟩, h6, h7⟩ := attributeOf_told hx fault h4 h3.inode (.inl index)
      have hs := attributeOf_safe hx fault h4 (.inl index)
      simp only [addAttribute]
      revert h5 h6 h7 hs
      generalize attributeOf x f fault fh (.inl index) = r
      intro h5 h6 h7 hs
      obtain ⟨r, h'⟩ := r
      have hrep : Rep x f ids (s.set k (.file h')) := h.set h1 ⟨by rw [h6]; exact h3.inode, by rw [h6]; exact h3.children, by rw [h7]; exact h3.extents⟩ (h.fine.set hs.2.1)
      cases r with
      | ub => exact absurd rfl hs.1
      | err => exact ⟨ids, .inl ⟨rfl, rfl⟩, hrep⟩
      | ok o =>
        obtain ⟨h8, a, h9, h10, h11⟩ := h5 (by simp)
        cases h11
        simp only
        split
        · exact ⟨ids, .inl ⟨rfl, rfl⟩, hrep⟩
        · exact ⟨ids ++ [.value i a], .inr ⟨as, a, h8, h9, h10, rfl, rfl⟩, hrep.push (id := .value i a) (o := .value { owner := k, value := a }) ⟨rfl, fun h => nomatch h⟩ (hrep.fine.push (o := .value { owner := k, value := a }) ⟨hs.2.2 a rfl, fun _ h => nomatch h⟩)⟩
  | attributeNamed k name =>
    exact h.onFile k (g := fun h => addAttribute x f fault s k h (.inr name)) (P := fun i r ids' => (r = err ∧ ids' = ids) ∨ ∃ as, FsTree.extendedAttributes f.tree f.xid i.identifier = ok as ∧ ((r = ok .none ∧ ids' = ids ∧ ∀ a ∈ as, x.compare a.name name = ok false) ∨
      ∃ before a after, as = before ++ a :: after ∧ (∀ b ∈ before, x.compare b.name name = ok false) ∧ x.compare a.name name = ok true ∧ r = ok .handle ∧ ids' = ids ++ [.value i a])) fun i fh h1 h2 h3 h4 => by
      obtain ⟨⟨as, h5⟩, h6, h7⟩ := attributeOf_told hx fault h4 h3.inode (.inr name)
      have hs := attributeOf_safe hx fault h4 (.inr name)
      simp only [addAttribute]
      revert h5 h6 h7 hs
      generalize attributeOf x f fault fh (.inr name) = r
      intro h5 h6 h7 hs
      obtain ⟨r, h'⟩ := r
      have hrep : Rep x f ids (s.set k (.file h')) := h.set h1 ⟨by rw [h6]; exact h3.inode, by rw [h6]; exact h3.children, by rw [h7]; exact h3.extents⟩ (h.fine.set hs.2.1)
      cases r with
      | ub => exact absurd rfl hs.1
      | err => exact ⟨ids, .inl ⟨rfl, rfl⟩, hrep⟩
      | ok o =>
        obtain ⟨h8, h9⟩ := h5 (by simp)
        rcases h9 with ⟨h10, h11⟩ | ⟨before, a, after, h10, h11, h12, h13⟩
        · cases h10
          exact ⟨ids, .inr ⟨as, h8, .inl ⟨rfl, rfl, h11⟩⟩, hrep⟩
        · cases h13
          simp only
          split
          · exact ⟨ids, .inl ⟨rfl, rfl⟩, hrep⟩
          · exact ⟨ids ++ [.value i a], .inr ⟨as, h8, .inr ⟨before, a, after, h10, h11, h12, rfl, rfl⟩⟩, hrep.push (id := .value i a) (o := .value { owner := k, value := a }) ⟨rfl, fun h => nomatch h⟩ (hrep.fine.push (o := .value { owner := k, value := a }) ⟨hs.2.2 a rfl, fun _ h => nomatch h⟩)⟩
  | value k o =>
    obtain ⟨h1, h2⟩ := h.onValue hx fault k (.ask o)
    refine ⟨ids, ?_, h2⟩
    simp only [Told]
    revert h1
    cases ids[k]? with
    | none => exact fun h1 => ⟨h1, by trivial⟩
    | some id => cases id <;> exact fun h1 => ⟨h1, by trivial⟩
  | valueExtents k q =>
    obtain ⟨h1, h2⟩ := h.onValue hx fault k (.extents q)
    refine ⟨ids, ?_, h2⟩
    simp only [Told]
    revert h1
    cases ids[k]? with
    | none => exact fun h1 => ⟨h1, by trivial⟩
    | some id => cases id <;> exact fun h1 => ⟨h1, by trivial⟩

theorem steps_told {α : Type} [DecidableEq α] (hx : Ok x f) (dn : Name.Decoder UInt8) (dq : Name.Decoder α) (separator : α) (cs : List (Step α × Fault)) {ids : List Identity} {s : State} (h : Rep x f ids s) :
    AllTold x dn dq separator f ids cs (steps x dn dq separator f cs s) := by
  induction cs generalizing ids s with
  | nil => trivial
  | cons c cs ih =>
    obtain ⟨c, fault⟩ := c
    obtain ⟨ids', h1, h2⟩ := step_told hx dn dq separator fault h c
    exact ⟨ids', h1, ih h2⟩

theorem empty_rep : Rep x f [] {} := ⟨empty_fine, rfl, fun _ _ h => (nomatch h), fun _ _ _ h => nomatch h⟩

end Browse
end Verif
