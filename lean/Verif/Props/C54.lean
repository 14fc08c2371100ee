import Verif.Model.Hierarchy
import Verif.Spec.Hierarchy
import Verif.Props.C53
import Verif.Lemmas.DirectoryExample
/-!
# C54 Sub file entries and parent of a file entry

The sub file entries of a directory are the entries of the directory with their inodes, in order, whatever calls were made before and even if some of them failed. They are what is found by path.
The parent of a file entry is the directory that its inode names, which is not always the directory it was obtained from.
-/
namespace Verif.Props
open Verif Res Spec BTree FsTree FileRead

/-- the inode record of a file, as an inode -/
def InodeIn (rs : List Record) (identifier : Nat) (i : Records.Inode) : Prop := ∃ r ∈ rs, IsOf identifier 3 r ∧ Records.readInode r = ok i

abbrev ReadableInode (r : Record) : Prop := ∃ i, Records.readInode r = ok i

theorem isOf_lt {identifier type : Nat} {r : Record} (h : IsOf identifier type r) : identifier < 2 ^ 60 := by
  rw [← h.1]
  exact Nat.mod_lt _ (by decide)

/-- the volume has a file system tree with storage `s` -/
structure OfTree (F : Files) (s : Storage) (xid : Nat) : Prop where
  tree : F.tree = volumeOf s
  xid : F.xid = xid

variable {F : Files} {s : Storage} {xid : Nat} {rs : List Record} {fmt : NameFormat}

theorem inode_found (hF : OfTree F s xid) (h : FsHolds s xid rs) (hI : Inodes rs ReadableInode) {identifier : Nat} (hex : ∃ r ∈ rs, IsOf identifier 3 r) :
    ∃ i, (lookups F).inode identifier = ok (some i) ∧ InodeIn rs identifier i ∧ i.identifier = identifier := by
  obtain ⟨r, hr, ho⟩ := hex
  obtain ⟨i, hi⟩ := hI.readable r hr ho.2
  have hl : (lookups F).inode identifier = ok (some i) := by
    show inodeByIdentifier F.tree F.xid identifier = _
    rw [hF.tree, hF.xid, (c19_lookup_partial s xid rs h identifier (isOf_lt ho) (hI.one identifier) hI.types).1 r hr ho, hi]
    rfl
  refine ⟨i, hl, ⟨r, hr, ho, hi⟩, ?_⟩
  refine c19_identifier s xid rs h identifier (isOf_lt ho) (hI.one identifier) hI.types i ?_
  rw [← hF.tree, ← hF.xid]
  exact hl

theorem directory_listed (hF : OfTree F s xid) (h : FsHolds s xid rs) {identifier : Nat} {entries : List DirEntry} (hdir : Directory rs fmt identifier entries) :
    (lookups F).directory identifier = ok (entries.map (NameLookup.recordOf fmt)) := by
  obtain ⟨r, hr, ho⟩ := hdir.inode
  show directoryRecords F.tree F.xid identifier = _
  rw [hF.tree, hF.xid, c20_listing s xid rs h identifier (isOf_lt ho) ⟨r, hr, ho⟩, hdir.records]
  have : ∀ l : List DirEntry, (∀ e ∈ l, e.Valid) → readAll Records.readDirectoryRecord (l.map (DirEntry.record fmt identifier)) = ok (l.map (NameLookup.recordOf fmt)) := by
    intro l hl
    induction l with
    | nil => rfl
    | cons e l ih =>
      simp only [List.map_cons]
      unfold readAll
      rw [NameLookup.readDirectoryRecord_entry (hl e (by simp)), ok_bind, ih (fun e he => hl e (List.mem_cons_of_mem _ he)), ok_bind]
      rfl
  exact this entries hdir.valid

/-- what a directory gives: its number of entries, and for each index the entry with its inode -/
structure Gives (rs : List Record) (fmt : NameFormat) (entries : List DirEntry) (count : Res NodeResult) (at_ : Int → Res NodeResult) : Prop where
  number : count = ok (.number entries.length)
  sub : ∀ k (hk : k < entries.length), (∃ r ∈ rs, IsOf entries[k].identifier 3 r) →
    ∃ i, InodeIn rs entries[k].identifier i ∧ i.identifier = entries[k].identifier ∧ at_ k = ok (.node { inode := i, record := some (NameLookup.recordOf fmt entries[k]) })
  missing : ∀ k (hk : k < entries.length), (∀ r ∈ rs, ¬ IsOf entries[k].identifier 3 r) → entries[k].identifier < 2 ^ 60 → at_ k = err
  outside : ∀ index : Int, index < 0 ∨ entries.length ≤ index → at_ index = err

/-- lookups in a call: those of the volume, or failures -/
structure Faulty (l g : Lookups) : Prop where
  directory : ∀ i, l.directory i = g.directory i ∨ l.directory i = err
  inode : ∀ i, l.inode i = g.inode i ∨ l.inode i = err

/-- a file entry as it is after calls -/
def KeptEntries (g : Lookups) (inode : Records.Inode) (n : FileNode) : Prop := n.inode = inode ∧ (n.children = none ∨ ∃ c, n.children = some c ∧ g.directory inode.identifier = ok c)

theorem determine_kept {l g : Lookups} (hl : Faulty l g) {inode : Records.Inode} {n : FileNode} (hn : KeptEntries g inode n) :
    KeptEntries g inode (determine l n).2 ∧ (determine l n).2.record = n.record ∧ ((determine l n).1 = g.directory inode.identifier ∨ (determine l n).1 = err) := by
  unfold determine
  obtain ⟨h1, h2 | ⟨c, h2, h3⟩⟩ := hn
  · rw [h2, h1]
    simp only
    rcases hl.directory inode.identifier with hd | hd
    · cases hg : g.directory inode.identifier with
      | ok c =>
        rw [hd, hg]
        exact ⟨⟨rfl, .inr ⟨c, rfl, hg⟩⟩, rfl, .inl rfl⟩
      | err =>
        rw [hd, hg]
        exact ⟨⟨h1, .inl h2⟩, rfl, .inl rfl⟩
      | ub =>
        rw [hd, hg]
        exact ⟨⟨h1, .inl h2⟩, rfl, .inl rfl⟩
    · rw [hd]
      exact ⟨⟨h1, .inl h2⟩, rfl, .inr rfl⟩
  · rw [h2]
    exact ⟨⟨h1, .inr ⟨c, h2, h3⟩⟩, rfl, .inl h3.symm⟩

theorem determine_same {g : Lookups} {inode : Records.Inode} {n : FileNode} (hn : KeptEntries g inode n) : (determine g n).1 = g.directory inode.identifier := by
  unfold determine
  obtain ⟨h1, h2 | ⟨c, h2, h3⟩⟩ := hn
  · rw [h2, h1]
    cases hg : g.directory inode.identifier <;> simp
  · rw [h2, h3]

theorem subNode_faulty {l g : Lookups} (hl : Faulty l g) (r : Records.DirectoryRecord) : subNode l r = subNode g r ∨ subNode l r = err := by
  unfold subNode
  rcases hl.inode r.identifier with h | h
  · rw [h]; exact .inl rfl
  · rw [h]; exact .inr rfl

theorem parentNode_faulty {l g : Lookups} (hl : Faulty l g) {n m : FileNode} (h : n.inode = m.inode) : parentNode l n = parentNode g m ∨ parentNode l n = err := by
  unfold parentNode
  rw [h]
  split
  · rcases hl.inode m.inode.parent with h | h
    · rw [h]; exact .inl rfl
    · rw [h]; exact .inr rfl
  · exact .inl rfl

theorem call_kept {l g : Lookups} (hl : Faulty l g) {inode : Records.Inode} {n m : FileNode} (hn : KeptEntries g inode n) (hm : KeptEntries g inode m) (c : NodeCall) :
    KeptEntries g inode (call l c n).2 ∧ ((call l c n).1 = (call g c m).1 ∨ (call l c n).1 = err) := by
  obtain ⟨h1, _, h3⟩ := determine_kept hl hn
  have h4 := determine_same hm
  cases hdl : determine l n with
  | mk r1 n1 =>
    cases hdg : determine g m with
    | mk r2 m2 =>
      rw [hdl] at h1 h3
      rw [hdg] at h4
      simp only at h1 h3 h4
      rw [← h4] at h3
      unfold call
      cases c with
      | number =>
        simp only [hdl, hdg]
        rcases h3 with rfl | rfl
        · cases r1 <;> exact ⟨h1, .inl rfl⟩
        · exact ⟨h1, .inr rfl⟩
      | sub index =>
        simp only [hdl, hdg]
        rcases h3 with rfl | rfl
        · cases r1 with
          | ok c =>
            refine ⟨h1, ?_⟩
            simp only
            cases elementAt c index with
            | err => exact .inl rfl
            | ub => exact .inl rfl
            | ok r =>
              simp only [ok_bind]
              rcases subNode_faulty hl r with h | h
              · rw [h]; exact .inl rfl
              · rw [h]; exact .inr rfl
          | err => exact ⟨h1, .inl rfl⟩
          | ub => exact ⟨h1, .inl rfl⟩
        · exact ⟨h1, .inr rfl⟩
      | parent =>
        simp only
        exact ⟨hn, parentNode_faulty hl (hn.1.trans hm.1.symm)⟩

/-- Calls on a file entry do not influence each other: whatever calls were made before, and whichever of their lookups failed, a call gives what it gives on a new file entry, or an error if a
lookup in this call fails. -/
theorem c54_history {g : Lookups} (n : FileNode) (hn : n.children = none) (cs : List (Lookups × NodeCall)) (hc : ∀ c ∈ cs, Faulty c.1 g) :
    ∀ k (hk : k < cs.length), ∃ r, (calls cs n)[k]? = some r ∧ (r = (call g cs[k].2 n).1 ∨ r = err) ∧ (cs[k].1 = g → r = (call g cs[k].2 n).1) := by
  have gen : ∀ (cs : List (Lookups × NodeCall)) (m : FileNode), (∀ c ∈ cs, Faulty c.1 g) → KeptEntries g n.inode m → ∀ k (hk : k < cs.length),
      ∃ r, (calls cs m)[k]? = some r ∧ (r = (call g cs[k].2 n).1 ∨ r = err) ∧ (cs[k].1 = g → r = (call g cs[k].2 n).1) := by
    intro cs
    induction cs with
    | nil => intro m _ _ k hk; exact absurd hk (by simp)
    | cons c cs ih =>
      intro m hc hm k hk
      have hkept := call_kept (hc c (by simp)) hm (m := n) ⟨rfl, .inl hn⟩ c.2
      cases k with
      | zero =>
        refine ⟨(call c.1 c.2 m).1, rfl, hkept.2, fun he => ?_⟩
        have he : c.1 = g := he
        rw [he] at hkept ⊢
        -- without failures both are the same
        have hself : Faulty g g := ⟨fun _ => .inl rfl, fun _ => .inl rfl⟩
        rcases (call_kept hself hm (m := n) ⟨rfl, .inl hn⟩ c.2).2 with h | h
        · exact h
        · rcases (call_kept hself (n := n) (m := m) ⟨rfl, .inl hn⟩ hm c.2).2 with h' | h'
          · exact h'.symm
          · rw [h]; exact h'.symm
      | succ k => exact ih _ (fun c h => hc c (List.mem_cons_of_mem _ h)) hkept.1 k (by simpa using hk)
  exact gen cs n hc ⟨rfl, .inl hn⟩

/-- The sub file entries of a directory are its entries with their inodes, in order and without others. -/
theorem c54_sub_entries (hF : OfTree F s xid) (h : FsHolds s xid rs) (hI : Inodes rs ReadableInode) {identifier : Nat} {entries : List DirEntry}
    (hdir : Directory rs fmt identifier entries) (n : FileNode) (hn : n.children = none) (hid : n.inode.identifier = identifier) :
    Gives rs fmt entries (call (lookups F) .number n).1 (fun index => (call (lookups F) (.sub index) n).1) := by
  have hdet : determine (lookups F) n = (ok (entries.map (NameLookup.recordOf fmt)), { n with children := some (entries.map (NameLookup.recordOf fmt)) }) := by
    unfold determine
    rw [hn, hid, directory_listed hF h hdir]
  have hsub : ∀ index, (call (lookups F) (.sub index) n).1 = (do let r ← elementAt (entries.map (NameLookup.recordOf fmt)) index; let s ← subNode (lookups F) r; return .node s) := by
    intro index
    unfold call
    simp only [hdet]
  have hat : ∀ k (hk : k < entries.length), elementAt (entries.map (NameLookup.recordOf fmt)) (k : Int) = ok (NameLookup.recordOf fmt entries[k]) := by
    intro k hk
    unfold elementAt
    rw [if_neg (by omega), Int.toNat_natCast, List.getElem?_map, List.getElem?_eq_getElem hk]
    rfl
  refine ⟨?_, fun k hk hex => ?_, fun k hk hno hlt => ?_, fun index hi => ?_⟩
  · unfold call
    simp only [hdet, List.length_map]
  · obtain ⟨i, h1, h2, h3⟩ := inode_found hF h hI hex
    refine ⟨i, h2, h3, ?_⟩
    show (call (lookups F) (.sub k) n).1 = _
    rw [hsub, hat k hk, ok_bind]
    unfold subNode
    rw [show (NameLookup.recordOf fmt entries[k]).identifier = entries[k].identifier from rfl, h1]
    rfl
  · show (call (lookups F) (.sub k) n).1 = _
    rw [hsub, hat k hk, ok_bind]
    unfold subNode
    have : (lookups F).inode entries[k].identifier = ok none := by
      show inodeByIdentifier F.tree F.xid _ = _
      rw [hF.tree, hF.xid]
      exact (c19_lookup_partial s xid rs h _ hlt (hI.one _) hI.types).2 hno
    rw [show (NameLookup.recordOf fmt entries[k]).identifier = entries[k].identifier from rfl, this]
    rfl
  · show (call (lookups F) (.sub index) n).1 = _
    rw [hsub]
    have : elementAt (entries.map (NameLookup.recordOf fmt)) index = err := by
      unfold elementAt
      split
      · rfl
      · rename_i h0
        rw [List.getElem?_eq_none (by rw [List.length_map]; omega)]
    rw [this]
    rfl

/-- A sub file entry is what the path of the entry leads to: the path of the directory followed by the name of the entry. -/
theorem c54_path {α : Type} [DecidableEq α] {dn : Name.Decoder UInt8} (hd : NameLookup.ReadsUtf8 dn) (dq : Name.Decoder α) {separator : α}
    (hsep : ∀ r, dq.next (separator :: r) = some (0x2f, r)) (hF : OfTree F s xid) (hfold : F.folding = fmt.caseInsensitive) (h : FsHolds s xid rs) (hI : Inodes rs ReadableInode)
    {names : List (List α)} {e : DirEntry} (hp : PathTo dq rs fmt names e) (leading trailing : Bool) (hlen : 2 ≤ (pathString separator leading trailing names).length)
    (hmax : (pathString separator leading trailing names).length < 2 ^ 63) (hex : ∃ r ∈ rs, IsOf e.identifier 3 r) :
    ∃ n, subNode (lookups F) (NameLookup.recordOf fmt e) = ok n ∧ byPath dn dq separator F (pathString separator leading trailing names) = ok (some (n.inode, n.record)) := by
  obtain ⟨i, h1, ⟨r, hr, ho, hi⟩, _⟩ := inode_found hF h hI hex
  obtain ⟨es, hes⟩ := hp.entries
  obtain ⟨_, _, d, hfr, _⟩ := h.tree
  refine ⟨{ inode := i, record := some (NameLookup.recordOf fmt e) }, ?_, ?_⟩
  · unfold subNode
    rw [show (NameLookup.recordOf fmt e).identifier = e.identifier from rfl, h1]
  · unfold byPath
    rw [hF.tree, hF.xid, hfold, c22_resolves hd dq hsep h (fsRootNode_ok hfr) hes hp.names leading trailing hlen hmax (isOf_lt ho) (hI.one _) hI.types hr ho, hi]
    rfl

/-- The parent of a sub file entry is the directory, if the inode of the entry names the directory. The full statement is without this condition, that is also for hard links; it is
false, see `c54_hard_link`. -/
theorem c54_parent_partial (hF : OfTree F s xid) (h : FsHolds s xid rs) (hI : Inodes rs ReadableInode) {identifier : Nat} (hex : ∃ r ∈ rs, IsOf identifier 3 r)
    (n : FileNode) (hid : 2 < n.inode.identifier) (hpar : n.inode.parent = identifier) :
    ∃ i, InodeIn rs identifier i ∧ i.identifier = identifier ∧ (call (lookups F) .parent n).1 = ok (.node { inode := i, record := none }) := by
  obtain ⟨i, h1, h2, h3⟩ := inode_found hF h hI hex
  refine ⟨i, h2, h3, ?_⟩
  unfold call parentNode
  simp only
  rw [if_pos hid, hpar, h1]

/-- The root directory has no parent. -/
theorem c54_root (l : Lookups) (n : FileNode) (hid : n.inode.identifier ≤ 2) : (call l .parent n).1 = ok .none := by
  unfold call parentNode
  simp only
  rw [if_neg (by omega)]

/-! The directory 10 of an example has a hard link to the file 7, whose inode names the directory 5. -/


/-- the files of the example -/
def linkFiles : Files := { disk := fun _ _ => err, xts := none, tree := volumeOf NameLookup.DirectoryExample.storage, xid := 9, folding := true }

theorem linkFiles_tree : OfTree linkFiles NameLookup.DirectoryExample.storage 9 := ⟨rfl, rfl⟩

def readsInode (r : Record) : Bool :=
  match Records.readInode r with
  | .ok _ => true
  | _ => false

theorem readsInode_readable {r : Record} (h : readsInode r = true) : ReadableInode r := by
  unfold readsInode at h
  cases e : Records.readInode r with
  | ok i => exact ⟨i, e⟩
  | err => rw [e] at h; cases h
  | ub => rw [e] at h; cases h

theorem one_of_nodup {rs : List Record} (h : (rs.filter fun r => fsType r.1 = 3).Pairwise (fun a b => fsId a.1 ≠ fsId b.1)) (i : Nat) :
    rs.Pairwise (fun a b => ¬ (IsOf i 3 a ∧ IsOf i 3 b)) := by
  rw [List.pairwise_filter] at h
  exact h.imp (fun {a b} hab hi => hab (decide_eq_true hi.1.2) (decide_eq_true hi.2.2) (hi.1.1.trans hi.2.1.symm))

theorem linkFiles_inodes : Inodes NameLookup.DirectoryExample.records ReadableInode :=
  ⟨fun i => one_of_nodup (by decide +kernel) i, fun r hr ht => readsInode_readable ((show ∀ r ∈ NameLookup.DirectoryExample.records, fsType r.1 = 3 → readsInode r = true by decide +kernel) r hr ht),
    by decide +kernel⟩

/-- what a result says about a file entry: identifier, name and parent -/
def shownNode : Res NodeResult → Option (Nat × Option Bytes × Nat)
  | .ok (.node n) => some (n.inode.identifier, n.record.map (·.name), n.inode.parent)
  | _ => none

def nodeOfIdentifier (l : Lookups) (i : Nat) : Option FileNode :=
  match l.inode i with
  | .ok (some i) => some { inode := i, record := none }
  | _ => none

/-- the second sub file entry of a directory -/
def second (l : Lookups) (i : Nat) : Res NodeResult :=
  match nodeOfIdentifier l i with
  | some n => (call l (.sub 1) n).1
  | none => err

/-- the parent of the second sub file entry of a directory -/
def parentOfSecond (l : Lookups) (i : Nat) : Res NodeResult :=
  match second l i with
  | .ok (.node m) => (call l .parent m).1
  | _ => err

/-- The parent of a hard link is not the directory that it was obtained from: the second sub file entry of directory 10 is "readme" with identifier 7, its parent is directory 5. -/
theorem c54_hard_link : shownNode (second (lookups linkFiles) 10) = some (7, some (storedName [0x72, 0x65, 0x61, 0x64, 0x6d, 0x65]), 5) ∧
    shownNode (parentOfSecond (lookups linkFiles) 10) = some (5, none, 2) := by
  constructor <;> decide +kernel

/-! The directory fits the theorems, also with a listing that fails once. -/

example : Directory NameLookup.DirectoryExample.records NameLookup.DirectoryExample.format 10 NameLookup.DirectoryExample.dir10 ∧ (∀ e ∈ NameLookup.DirectoryExample.dir10, ∃ r ∈ NameLookup.DirectoryExample.records, IsOf e.identifier 3 r) :=
  ⟨NameLookup.DirectoryExample.directory10, by decide +kernel⟩

example : Faulty { lookups linkFiles with directory := fun _ => err } (lookups linkFiles) := ⟨fun _ => .inr rfl, fun _ => .inl rfl⟩

example : (nodeOfIdentifier (lookups linkFiles) 5).map (fun n => n.inode.parent) = some 2 := by decide +kernel

end Verif.Props
