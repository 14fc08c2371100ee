import Verif.Spec.EntryName
import Verif.Spec.Mount
import Verif.Model.Browse
import Verif.Props.C54
import Verif.Props.C82
import Verif.Lemmas.DirectoryExample
import Verif.Lemmas.PathString
/-!
# C85: names lead back to what has them

The name of a sub file entry, and of an extended attribute, that a caller gets in UTF-8 or UTF-16 leads to that sub file entry, or attribute, when it is used to look it up.
-/
namespace Verif.Props
open Res Spec BTree FsTree FileRead Name NameLookup EntryName Transcode

variable {α : Type} {dq : Decoder α} {e : Enc dq}

/-- The string that a caller gets has the name and an end of string, and fits in the buffer of the size that was told, and in none that is smaller. -/
theorem c85_ask {u : Una α} (hu : Converts e u) {s : List Nat} (hs : Text s) {stored : Option Bytes} (hn : stored = some (storedName s)) :
    u.size stored = ok ((e.str s).length + 1) ∧ ask (u.size stored) (u.copy stored) = ok (e.str s ++ e.enc 0) ∧ (e.str s ++ e.enc 0).length = (e.str s).length + 1 ∧
      ∀ capacity, capacity < (e.str s).length + 1 → u.copy stored capacity = err := by
  subst hn
  refine ⟨hu.size s hs, ?_, by rw [List.length_append, e.one 0 (.inr rfl)], fun capacity h => ?_⟩
  · unfold ask
    rw [hu.size s hs, ok_bind, hu.copy s _ hs, if_pos (Nat.le_refl _)]
  · rw [hu.copy s _ hs, if_neg (by omega)]

theorem str_decodes (e : Enc dq) {s : List Nat} (hs : ∀ c ∈ s, Scalar c) (r : List α) : Decodes dq (e.str s ++ r) s r := by
  induction s with
  | nil => exact .done _
  | cons c s ih =>
    rw [str_cons, List.append_assoc]
    exact .step (e.next c _ (hs c (by simp))) (ih fun c hc => hs c (List.mem_cons_of_mem _ hc))

theorem str_nameOf (e : Enc dq) {s : List Nat} (hs : Text s) : NameOf dq (e.str s) s := by
  have h := str_decodes e (fun c hc => (hs c hc).1) []
  rw [List.append_nil] at h
  unfold NameOf
  rw [stripNul_str e s (fun c hc => (hs c hc).1)]
  have : stripNul (fun c => c == 0) s = s := by
    unfold stripNul
    split
    · rename_i c hc
      rw [if_neg]
      have := (hs c (List.mem_of_getLast? hc)).2
      simpa using this
    · rfl
  rw [this]
  exact h

/-- names of entries of a directory, as far as lookups find them: see C03 and C21 -/
def Named (f : NameFormat) (entries : List DirEntry) : Prop := entries.Pairwise (fun a b => ¬ SameName f.caseInsensitive a.name b.name) ∧ ∀ x ∈ entries, Findable f x.name

/-- Each sub file entry of a directory has the name of its entry, in either encoding, whatever was called before on the directory. -/
theorem c85_names {u : Una α} (hu : Converts e u) {F : Files} {s : Storage} {xid : Nat} {rs : List Record} {fmt : NameFormat} (hF : OfTree F s xid) (h : FsHolds s xid rs) (hI : Inodes rs ReadableInode)
    {dir : FileNode} {entries : List DirEntry} (hdir : Directory rs fmt dir.inode.identifier entries) (hc : KeptEntries (lookups F) dir.inode dir)
    {k : Nat} (hk : k < entries.length) (hex : ∃ r ∈ rs, IsOf entries[k].identifier 3 r) :
    ∃ n, (call (lookups F) (.sub k) dir).1 = ok (.node n) ∧ InodeIn rs entries[k].identifier n.inode ∧ n.inode.identifier = entries[k].identifier ∧ n.record = some (recordOf fmt entries[k]) ∧
      ask (nameSize u n) (name u n) = ok (e.str entries[k].name ++ e.enc 0) ∧
      nameSize u n = ok (e.str entries[k].name ++ e.enc 0).length ∧ ∀ capacity, capacity < (e.str entries[k].name ++ e.enc 0).length → name u n capacity = err := by
  have hself : Faulty (lookups F) (lookups F) := ⟨fun _ => .inl rfl, fun _ => .inl rfl⟩
  obtain ⟨i, h1, h2, h3⟩ := (c54_sub_entries hF h hI hdir { dir with children := none } rfl rfl).sub k hk hex
  have h3 : (call (lookups F) (.sub k) dir).1 = ok (.node { inode := i, record := some (recordOf fmt entries[k]) }) := by
    rcases (call_kept hself (n := { dir with children := none }) (m := dir) ⟨rfl, .inl rfl⟩ hc (.sub k)).2 with h4 | h4
    · rw [← h4, h3]
    · rw [h3] at h4
      cases h4
  obtain ⟨g1, g2, g3, g4⟩ := c85_ask hu (hdir.valid entries[k] (List.getElem_mem hk)).name (s := entries[k].name) rfl
  rw [g3]
  exact ⟨_, h3, h1, h2, rfl, g2, g1, g4⟩

/-- Partial: the name of a sub file entry leads from the directory to the same file, in either encoding. The full claim is false for names of one unit, see below, and for names that lookups do not find, see C03 and
C21. -/
theorem c85_listed_partial [DecidableEq α] {dn : Decoder UInt8} (hd : ReadsUtf8 dn) {separator : α} (hsep : e.enc 0x2f = [separator]) {u : Una α} (hu : Converts e u)
    {F : Files} {s : Storage} {xid : Nat} {rs : List Record} {fmt : NameFormat} (hF : OfTree F s xid) (hfold : F.folding = fmt.caseInsensitive) (h : FsHolds s xid rs) (hI : Inodes rs ReadableInode)
    {dir : FileNode} {entries : List DirEntry} (hdir : Directory rs fmt dir.inode.identifier entries) (hnames : Named fmt entries) (hc : KeptEntries (lookups F) dir.inode dir)
    {k : Nat} (hk : k < entries.length) (hex : ∃ r ∈ rs, IsOf entries[k].identifier 3 r) (h5 : ∀ c ∈ entries[k].name, c ≠ 0x2f) (h4 : 2 ≤ (e.str entries[k].name).length)
    (h6 : (e.str entries[k].name).length < 2 ^ 63) :
    ∃ n name, (call (lookups F) (.sub k) dir).1 = ok (.node n) ∧ n.inode.identifier = entries[k].identifier ∧ ask (nameSize u n) (EntryName.name u n) = ok (name ++ e.enc 0) ∧
      Browse.named dn dq separator F dir.inode name = ok (some (n.inode, n.record)) := by
  obtain ⟨n, h3, ⟨r, hr, ho, hi⟩, h2, hrec, hask, _⟩ := c85_names hu hF h hI hdir hc hk hex
  have hv := hdir.valid entries[k] (List.getElem_mem hk)
  refine ⟨n, _, h3, h2, hask, ?_⟩
  have hne : entries[k].name ≠ [] := by
    intro h0
    rw [h0] at h4
    exact absurd h4 (by simp [Enc.str])
  have hf := hnames.2 entries[k] (List.getElem_mem hk)
  have hdec := fun r => str_decodes e (fun c hc => (hv.name c hc).1) r
  obtain ⟨strHash, hq⟩ := c21_query dq fmt entries (e.str entries[k].name) entries[k].name (str_nameOf e hv.name)
    ⟨fun c hc => (hv.name c hc).2, [], by have := hdec []; rwa [List.append_nil] at this, .inl rfl⟩ hf.tables hf.order hf.folded
    (fun hh => ⟨hf.hash hh, fun x hx => (hnames.2 x hx).hash hh⟩) (fun x hx _ => (hnames.2 x hx).tables)
  obtain ⟨_, _, d, hfr, _⟩ := h.tree
  obtain ⟨_, _, hro⟩ := hdir.inode
  have hh : Hierarchy dq rs fmt dir.inode.identifier [e.str entries[k].name] ([] ++ [entries[k]]) :=
    .step (isOf_lt hro) hdir (List.getElem_mem hk) hq hnames.1 (.here _)
  have hseg : IsSegment dq (e.str entries[k].name) := ⟨by rw [Ne, str_eq_nil e _ (fun c hc => (hv.name c hc).1)]; exact hne, entries[k].name, fun c hc => ⟨h5 c hc, (hv.name c hc).2⟩, hdec⟩
  have hsep' : ∀ r, dq.next (separator :: r) = some (0x2f, r) := fun r => by
    have := e.next 0x2f r (by decide)
    rwa [hsep] at this
  have hp : pathString separator false false [e.str entries[k].name] = e.str entries[k].name := by simp [pathString, joinNames]
  have := c22_resolves hd dq hsep' h (fsRootNode_ok hfr) hh (fun n hn => by rw [List.mem_singleton] at hn; rw [hn]; exact hseg) false false (by rw [hp]; exact h4) (by rw [hp]; exact h6)
    (isOf_lt ho) (hI.one _) hI.types hr ho
  rw [hp] at this
  unfold Browse.named
  rw [hF.tree, hF.xid, hfold, this, hi, hrec]
  rfl

/-- Partial: what a name gives is in the directory. A name of two or more units without slashes gives none, or a file whose entry has the name up to case and composition where the volume ignores them, and an error only
if there is no inode for such an entry. The full claim is false for names with slashes and names of one unit, see below. -/
theorem c85_sound_partial [DecidableEq α] {dn : Decoder UInt8} (hd : ReadsUtf8 dn) {separator : α} (hsep : e.enc 0x2f = [separator]) {F : Files} {s : Storage} {xid : Nat} {rs : List Record} {fmt : NameFormat}
    (hF : OfTree F s xid) (hfold : F.folding = fmt.caseInsensitive) (h : FsHolds s xid rs) (hI : Inodes rs ReadableInode) {dir : FileNode} {entries : List DirEntry}
    (hdir : Directory rs fmt dir.inode.identifier entries) {q : List Nat} (hq : Text q) (hfind : Findable fmt q) (hentries : ∀ x ∈ entries, Findable fmt x.name) (h5 : ∀ c ∈ q, c ≠ 0x2f) (h4 : 2 ≤ (e.str q).length)
    (h6 : (e.str q).length < 2 ^ 63) :
    Browse.named dn dq separator F dir.inode (e.str q) = ok none ∨ ∃ x ∈ entries, SameName fmt.caseInsensitive q x.name ∧
      ((∃ i, InodeIn rs x.identifier i ∧ Browse.named dn dq separator F dir.inode (e.str q) = ok (some (i, some (recordOf fmt x)))) ∨
        (∀ r ∈ rs, ¬ IsOf x.identifier 3 r) ∧ (x.identifier < 2 ^ 60 → Browse.named dn dq separator F dir.inode (e.str q) = err)) := by
  have hne : q ≠ [] := by
    rintro rfl
    exact absurd h4 (by simp [Enc.str])
  have hdec := fun r => str_decodes e (fun c hc => (hq c hc).1) r
  obtain ⟨strHash, hqu⟩ := c21_query dq fmt entries (e.str q) q (str_nameOf e hq)
    ⟨fun c hc => (hq c hc).2, [], by have := hdec []; rwa [List.append_nil] at this, .inl rfl⟩ hfind.tables hfind.order hfind.folded
    (fun hh => ⟨hfind.hash hh, fun x hx => (hentries x hx).hash hh⟩) (fun x hx _ => (hentries x hx).tables)
  obtain ⟨_, _, d, hfr, _⟩ := h.tree
  obtain ⟨_, _, hro⟩ := hdir.inode
  have hseg : IsSegment dq (e.str q) := ⟨by rw [Ne, str_eq_nil e _ (fun c hc => (hq c hc).1)]; exact hne, q, fun c hc => ⟨h5 c hc, (hq c hc).2⟩, hdec⟩
  have hsep' : ∀ r, dq.next (separator :: r) = some (0x2f, r) := fun r => by
    have := e.next 0x2f r (by decide)
    rwa [hsep] at this
  have hp : pathString separator false false [e.str q] = e.str q := by simp [pathString, joinNames]
  have hw := c22_walk dn dq hsep' fmt.caseInsensitive (fsRootNode_ok hfr) xid dir.inode.identifier [e.str q] (fun n hn => by rw [List.mem_singleton] at hn; rw [hn]; exact hseg) (by simp) false false
    (by rw [hp]; exact h4) (by rw [hp]; exact h6)
  rw [hp] at hw
  have hnamed : Browse.named dn dq separator F dir.inode (e.str q) = lookupPath dn dq separator fmt.caseInsensitive (volumeOf s) xid dir.inode.identifier (e.str q) := by
    unfold Browse.named
    rw [hF.tree, hF.xid, hfold]
  rw [hnamed, hw]
  rcases c21_sound hd dq h (fsRootNode_ok hfr) (isOf_lt hro) hdir hqu with hn | ⟨x, hx, hsame, _, hl⟩
  · left
    simp only [walk, hn, ok_bind]
    rfl
  · refine .inr ⟨x, hx, hsame, ?_⟩
    simp only [walk, hl, ok_bind]
    by_cases hex : ∃ r ∈ rs, IsOf x.identifier 3 r
    · obtain ⟨i, g1, g2, _⟩ := inode_found hF h hI hex
      refine .inl ⟨i, g2, ?_⟩
      have g1 : inodeByIdentifier (volumeOf s) xid x.identifier = ok (some i) := by
        rw [← hF.tree, ← hF.xid]
        exact g1
      simp only [fileOf, recordOf, g1, ok_bind]
      rfl
    · refine .inr ⟨fun r hr ho => hex ⟨r, hr, ho⟩, fun hlt => ?_⟩
      simp only [fileOf, recordOf]
      rw [(c19_lookup_partial s xid rs h x.identifier hlt (hI.one _) hI.types).2 fun r hr ho => hex ⟨r, hr, ho⟩]
      rfl

/-! ## Extended attributes -/

/-- names of extended attributes that are well-formed -/
def TextNames (f : StoredFile) : Prop := ∀ x ∈ f.attributes, ∃ t, Text t ∧ t ≠ [] ∧ x.name = Utf8.encode t

theorem findNamed_text {u : Una α} (hu : Converts e u) {q : List Nat} (hq : Text q) (h0 : q ≠ []) (xs : List XAttr) (hx : ∀ x ∈ xs, ∃ t, Text t ∧ t ≠ [] ∧ x.name = Utf8.encode t) :
    findNamed u (e.str q) (xs.map FileEntry.attr) = ok ((xs.find? fun x => x.name = Utf8.encode q).map FileEntry.attr) := by
  induction xs with
  | nil => rfl
  | cons x xs ih =>
    obtain ⟨t, h1, h2, h3⟩ := hx x (by simp)
    have hd : decide (x.name = Utf8.encode q) = decide (t = q) := by
      rw [h3]
      apply decide_eq_decide.2
      exact ⟨fun h => PathString.encode_inj t q (fun c hc => (h1 c hc).1) (fun c hc => (hq c hc).1) h, fun h => by rw [h]⟩
    rw [List.map_cons, List.find?_cons, hd]
    unfold findNamed
    rw [show (FileEntry.attr x).name = storedName t by simp [FileEntry.attr, storedName, h3], hu.compare t q h1 hq h2 h0, ok_bind]
    cases decide (t = q) with
    | true => rfl
    | false => exact ih fun y hy => hx y (List.mem_cons_of_mem _ hy)

theorem find_unique {xs : List XAttr} (hp : xs.Pairwise fun x y => x.name ≠ y.name) {x : XAttr} (hx : x ∈ xs) {n : Bytes} (hn : x.name = n) : xs.find? (fun y => y.name = n) = some x := by
  induction xs with
  | nil => cases hx
  | cons y ys ih =>
    rw [List.pairwise_cons] at hp
    rw [List.find?_cons]
    rcases List.mem_cons.1 hx with rfl | hx
    · rw [decide_eq_true hn]
    · rw [decide_eq_false (fun h => hp.1 x hx (h.trans hn.symm))]
      exact ih hp.2 hx

variable {f : StoredFile} {env : FileEntry.Env} {entry : FileEntry.Entry}

/-- Partial: lookups by name tell the attribute that has the name, or that there is none, in either encoding, after any calls on the file entry. What is missing: strings that are not well-formed or empty, which libuna
decides about. -/
theorem c85_lookup_partial {u : Una α} (hu : Converts e u) (hf : f.Valid) (ht : TextNames f) (he : FileEntry.Reached f entry) (hv : FileEntry.Faithful f env) {q : List Nat} (hq : Text q) (h0 : q ≠ []) :
    ((attributeByName u env (e.str q) entry).1 = err ∧ ¬ FileEntry.Healthy f env ∨ (attributeByName u env (e.str q) entry).1 = ok ((f.attributes.find? fun x => x.name = Utf8.encode q).map FileEntry.attr)) ∧
      ((hasAttribute u env (e.str q) entry).1 = err ∧ ¬ FileEntry.Healthy f env ∨ (hasAttribute u env (e.str q) entry).1 = ok (decide (∃ x ∈ f.attributes, x.name = Utf8.encode q))) := by
  have key : (attributeByName u env (e.str q) entry).1 = err ∧ ¬ FileEntry.Healthy f env ∨
      (attributeByName u env (e.str q) entry).1 = ok ((f.attributes.find? fun x => x.name = Utf8.encode q).map FileEntry.attr) := by
    unfold attributeByName
    obtain ⟨r, e', hn, h1, h2, h3, h4, h5⟩ := FileEntry.needAttributes_spec hf (he.inv hf) hv
    rw [hn]
    cases r with
    | ub => exact absurd rfl h1
    | err => exact .inl ⟨rfl, fun hh => by have := h2 hh; cases this⟩
    | ok _ =>
      simp only [h5 rfl]
      exact .inr (findNamed_text hu hq h0 f.attributes ht)
  refine ⟨key, ?_⟩
  unfold hasAttribute
  cases hr : attributeByName u env (e.str q) entry with
  | mk r e' =>
    rw [hr] at key
    rcases key with ⟨h1, h2⟩ | h1
    · simp only at h1
      subst h1
      exact .inl ⟨rfl, h2⟩
    · simp only at h1
      subst h1
      refine .inr ?_
      simp only [Option.isSome_map]
      congr 1
      rw [Bool.eq_iff_iff, List.find?_isSome]
      simp

/-- Partial: an attribute that is got by index has the name of its record in either encoding, and its name leads to it, see `c85_lookup_partial` about what is missing. -/
theorem c85_attributes_partial {u : Una α} (hu : Converts e u) (hf : f.Valid) (ht : TextNames f) (he : FileEntry.Reached f entry) (hv : FileEntry.Healthy f env) {k : Nat} (hk : k < f.attributes.length) :
    ∃ a t, (AttributeRead.attributeByIndex env k entry).1 = ok a ∧ Text t ∧ f.attributes[k].name = Utf8.encode t ∧ ask (attributeNameSize u a) (attributeName u a) = ok (e.str t ++ e.enc 0) ∧
      attributeNameSize u a = ok (e.str t ++ e.enc 0).length ∧ (∀ capacity, capacity < (e.str t ++ e.enc 0).length → attributeName u a capacity = err) ∧
      (attributeByName u env (e.str t) entry).1 = ok (some a) ∧ (hasAttribute u env (e.str t) entry).1 = ok true := by
  obtain ⟨t, h1, h2, h3⟩ := ht _ (List.getElem_mem hk)
  have hat := (AttributeRead.attributeByIndex_spec hf (he.inv hf) hv.faithful k).2.2.2 hv (by omega) f.attributes[k] (List.getElem?_eq_getElem (by omega))
  obtain ⟨g1, g2⟩ := c85_lookup_partial hu hf ht he hv.faithful h1 h2
  obtain ⟨s1, s2, s3, s4⟩ := c85_ask hu h1 (stored := some (FileEntry.attr f.attributes[k]).name) (by simp [FileEntry.attr, storedName, h3])
  refine ⟨_, t, hat, h1, h3, s2, by rw [s3]; exact s1, by rw [s3]; exact s4, ?_, ?_⟩
  · rcases g1 with ⟨_, g⟩ | g
    · exact absurd hv g
    · rw [g, find_unique hf.unique (List.getElem_mem hk) h3]
      rfl
  · rcases g2 with ⟨_, g⟩ | g
    · exact absurd hv g
    · rw [g, decide_eq_true ⟨_, List.getElem_mem hk, h3⟩]

/-- Partial: the two encodings find the same, see `c85_lookup_partial` about what is missing. -/
theorem c85_encodings_partial {u8 : Una UInt8} (h8 : Converts utf8Enc u8) {u16 : Una UInt16} (h16 : Converts utf16Enc u16) (hf : f.Valid) (ht : TextNames f) (he : FileEntry.Reached f entry)
    (hv : FileEntry.Healthy f env) {q : List Nat} (hq : Text q) (h0 : q ≠ []) :
    (attributeByName u8 env (utf8Enc.str q) entry).1 = (attributeByName u16 env (utf16Enc.str q) entry).1 ∧ (attributeByName u8 env (utf8Enc.str q) entry).1 ≠ err := by
  rcases (c85_lookup_partial h8 hf ht he hv.faithful hq h0).1 with ⟨_, g⟩ | g
  · exact absurd hv g
  · rcases (c85_lookup_partial h16 hf ht he hv.faithful hq h0).1 with ⟨_, g'⟩ | g'
    · exact absurd hv g'
    · exact ⟨by rw [g, g'], by rw [g]; simp⟩

/-! ## Where the claim is false -/

/-- a directory of the example -/
def exampleNode (identifier : Nat) : FileNode :=
  { inode := match (lookups linkFiles).inode identifier with
      | .ok (some i) => i
      | _ => { identifier := 0, parent := 0, dataStream := 0, modification := 0, creation := 0, change := 0, access := 0, flags := 0, owner := 0, group := 0, mode := 0, links := 0, name := none, size := 0, device := 0 }
    record := none }

def whereTo (r : Res (Option (Records.Inode × Option Records.DirectoryRecord))) : Option Nat :=
  match r with
  | .ok (some p) => some p.1.identifier
  | _ => none

/-- A name of one unit: the second sub file entry of directory 5 is the file 8 with a name of one Korean character. In UTF-16 the name leads to the directory itself. -/
theorem c85_one_unit {u : Una UInt16} (hu : Converts utf16Enc u) :
    ∃ n, (call (lookups linkFiles) (.sub 1) (exampleNode 5)).1 = ok (.node n) ∧ n.inode.identifier = 8 ∧ ask (nameSize u n) (name u n) = ok [0xac01, 0] ∧
      whereTo (Browse.named utf8 utf16 0x2f linkFiles (exampleNode 5).inode [0xac01]) = some 5 := by
  have hid : (exampleNode 5).inode.identifier = 5 := by decide +kernel
  obtain ⟨n, a1, _, a2, _, a3, _⟩ := c85_names (k := 1) hu linkFiles_tree DirectoryExample.holds linkFiles_inodes (dir := exampleNode 5) (entries := DirectoryExample.dir5)
    (by rw [hid]; exact DirectoryExample.directory5) ⟨rfl, .inl rfl⟩ (by decide) (by decide +kernel)
  exact ⟨n, a1, a2, a3, by decide +kernel⟩

/-- A name with a slash is a path: looking up "Docs/readme" as name of a sub file entry of the root directory gives the file 7, which has no entry there, and no entry has that name. -/
theorem c85_slash : whereTo (Browse.named utf8 utf8 0x2f linkFiles (exampleNode 2).inode (Utf8.encode (DirectoryExample.docs ++ 0x2f :: DirectoryExample.readme))) = some 7 ∧
    Directory DirectoryExample.records DirectoryExample.format (exampleNode 2).inode.identifier DirectoryExample.dir2 ∧
    ∀ x ∈ DirectoryExample.dir2, x.identifier ≠ 7 ∧ ¬ SameName true (DirectoryExample.docs ++ 0x2f :: DirectoryExample.readme) x.name := by
  refine ⟨by decide +kernel, ?_, by unfold SameName; decide +kernel⟩
  rw [show (exampleNode 2).inode.identifier = 2 by decide +kernel]
  exact DirectoryExample.directory2

/-- A file entry that was got by identifier, or is the root directory, has no name to tell if the inode has no field for it, although a directory has an entry with a name for it. -/
theorem c85_no_name {u : Una α} (hu : Converts e u) (n : FileNode) (hr : n.record = none) (hn : n.inode.name = none) : nameSize u n = err ∧ ∀ capacity, name u n capacity = err := by
  unfold nameSize name entryName
  rw [hr]
  simp only [hn]
  exact hu.null

/-- such a file: the one with the Korean name -/
example : (nodeOfIdentifier (lookups linkFiles) 8).map (fun n => (n.record, n.inode.name)) = some (none, none) ∧ ∃ x ∈ DirectoryExample.dir5, x.identifier = 8 := by decide +kernel

/-! ## Examples -/

section
open Classical

/-- libuna as it would be for an encoding -/
noncomputable def lawful (e : Enc dq) : Una α where
  size b := if h : ∃ t, Text t ∧ b = some (storedName t) then ok ((e.str h.choose).length + 1) else err
  copy b capacity := if h : ∃ t, Text t ∧ b = some (storedName t) then if (e.str h.choose).length + 1 ≤ capacity then ok (e.str h.choose ++ e.enc 0) else err else err
  compare b s := ok (decide (∃ t, Text t ∧ b = storedName t ∧ s = e.str t))

theorem stored_inj {a b : List Nat} (ha : Text a) (hb : Text b) (h : storedName a = storedName b) : a = b :=
  PathString.encode_inj a b (fun c hc => (ha c hc).1) (fun c hc => (hb c hc).1) (List.append_cancel_right h)

theorem str_inj (e : Enc dq) : ∀ {a b : List Nat}, Text a → Text b → e.str a = e.str b → a = b
  | [], [], _, _, _ => rfl
  | [], c :: b, _, hb, h => absurd ((str_eq_nil e _ (fun c hc => (hb c hc).1)).1 h.symm) (by simp)
  | c :: a, [], ha, _, h => absurd ((str_eq_nil e _ (fun c hc => (ha c hc).1)).1 h) (by simp)
  | c :: a, d :: b, ha, hb, h => by
    rw [str_cons, str_cons] at h
    have h1 := e.next c (e.str a) (ha c (by simp)).1
    have h2 := e.next d (e.str b) (hb d (by simp)).1
    rw [h, h2] at h1
    have h3 := Prod.mk.inj (Option.some.inj h1)
    rw [h3.1, str_inj e (fun c hc => ha c (List.mem_cons_of_mem _ hc)) (fun c hc => hb c (List.mem_cons_of_mem _ hc)) h3.2.symm]

theorem lawful_converts (e : Enc dq) : Converts e (lawful e) := by
  have key : ∀ t (ht : Text t), ∃ h : ∃ t', Text t' ∧ some (storedName t) = some (storedName t'), h.choose = t := by
    intro t ht
    have h : ∃ t', Text t' ∧ some (storedName t) = some (storedName t') := ⟨t, ht, rfl⟩
    exact ⟨h, (stored_inj ht h.choose_spec.1 (Option.some.inj h.choose_spec.2)).symm⟩
  refine ⟨fun t ht => ?_, fun t capacity ht => ?_, fun a b ha hb _ _ => ?_, ?_, fun _ => ?_⟩
  · obtain ⟨h, h'⟩ := key t ht
    simp only [lawful]
    rw [dif_pos h, h']
  · obtain ⟨h, h'⟩ := key t ht
    simp only [lawful]
    rw [dif_pos h, h']
  · simp only [lawful]
    congr 1
    apply decide_eq_decide.2
    constructor
    · rintro ⟨t, h1, h2, h3⟩
      rw [stored_inj ha h1 h2, str_inj e hb h1 h3]
    · rintro rfl
      exact ⟨a, ha, rfl, rfl⟩
  · simp [lawful]
  · simp [lawful]

end

example := c85_one_unit (lawful_converts utf16Enc)

/-- the root directory of the example has "Docs" and "readme" -/
theorem named2 : Named DirectoryExample.format DirectoryExample.dir2 := by
  refine ⟨by unfold SameName; decide +kernel, fun x hx => ?_⟩
  simp only [DirectoryExample.dir2, List.mem_cons, List.not_mem_nil, or_false] at hx
  rcases hx with rfl | rfl
  · exact ⟨by decide +kernel, by decide +kernel, by decide +kernel, by decide +kernel⟩
  · exact ⟨by decide +kernel, by decide +kernel, by decide +kernel, by decide +kernel⟩

/-- "readme", in both encodings -/
example : (∃ n name, (call (lookups linkFiles) (.sub 1) (exampleNode 2)).1 = ok (.node n) ∧ n.inode.identifier = 9 ∧ ask (nameSize (lawful utf8Enc) n) (EntryName.name (lawful utf8Enc) n) = ok (name ++ [0]) ∧
      Browse.named utf8 utf8 0x2f linkFiles (exampleNode 2).inode name = ok (some (n.inode, n.record))) ∧
    ∃ n name, (call (lookups linkFiles) (.sub 1) (exampleNode 2)).1 = ok (.node n) ∧ n.inode.identifier = 9 ∧ ask (nameSize (lawful utf16Enc) n) (EntryName.name (lawful utf16Enc) n) = ok (name ++ [0]) ∧
      Browse.named utf8 utf16 0x2f linkFiles (exampleNode 2).inode name = ok (some (n.inode, n.record)) := by
  have hdir : Directory DirectoryExample.records DirectoryExample.format (exampleNode 2).inode.identifier DirectoryExample.dir2 := by
    rw [show (exampleNode 2).inode.identifier = 2 by decide +kernel]
    exact DirectoryExample.directory2
  have hex : ∃ r ∈ DirectoryExample.records, IsOf DirectoryExample.dir2[1].identifier 3 r := by decide +kernel
  exact ⟨c85_listed_partial (k := 1) readsUtf8_utf8 rfl (lawful_converts utf8Enc) linkFiles_tree rfl DirectoryExample.holds linkFiles_inodes hdir named2 ⟨rfl, .inl rfl⟩ (by decide) hex (by decide) (by decide) (by decide),
    c85_listed_partial (k := 1) readsUtf8_utf8 rfl (lawful_converts utf16Enc) linkFiles_tree rfl DirectoryExample.holds linkFiles_inodes hdir named2 ⟨rfl, .inl rfl⟩ (by decide) hex (by decide) (by decide) (by decide)⟩

/-- a name that the root directory does not have, and one that it has -/
example (q : List Nat) (hq : q = [0x6e, 0x6f, 0x6e, 0x65] ∨ q = DirectoryExample.docs) := c85_sound_partial (e := utf16Enc) (q := q) readsUtf8_utf8 rfl linkFiles_tree rfl DirectoryExample.holds linkFiles_inodes
  (dir := exampleNode 2) (by rw [show (exampleNode 2).inode.identifier = 2 by decide +kernel]; exact DirectoryExample.directory2)
  (by unfold Text; rcases hq with rfl | rfl <;> decide)
  (by rcases hq with rfl | rfl <;> exact ⟨by decide +kernel, by decide +kernel, by decide +kernel, by decide +kernel⟩) named2.2
  (by rcases hq with rfl | rfl <;> decide) (by rcases hq with rfl | rfl <;> decide) (by rcases hq with rfl | rfl <;> decide)

/-- the attribute "tag" of "readme" -/
theorem readme_text : TextNames VolumeExample.readmeFile := by
  intro x hx
  simp only [VolumeExample.readmeFile, List.mem_cons, List.not_mem_nil, or_false] at hx
  subst hx
  exact ⟨[0x74, 0x61, 0x67], by unfold Text; decide, by decide, by decide⟩

example (i : Records.Inode) (hi : ReadsAs i VolumeExample.readmeFile 7) := c85_attributes_partial (k := 0) (lawful_converts utf16Enc) (FileExample.readme_in FileExample.plain_blocks).valid readme_text (.new 0x200 rfl)
  (healthy_env ExtentsExample.serves VolumeExample.holds FileExample.hasRoot (FileExample.readme_in FileExample.plain_blocks) (FileExample.compares _) hi) (by decide)

end Verif.Props
