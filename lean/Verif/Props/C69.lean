import Verif.Props.C56
import Verif.Props.C68
import Verif.Props.C55Volumes
import Verif.Model.Bodyfile
import Verif.Spec.Bodyfile
/-!
# C69: The bodyfile of a volume

A bodyfile has one line for each path of a volume, from which path, inode, mode, owner, group, size, times and digest of the file can be read.
-/
namespace Verif.Props
open Verif Res Spec BTree FsTree FileRead
open Verif.PathString (escaped Lawful ssizeMax cString Plain fields_name fields_next fields_bar fields_last tailText linkText modeString timeField number_decimal mode_letters time_timeField unescape_flatMap
  mem_flatMap_escaped numeric_line numeric_decimal numeric_time numeric_plain plain_mode toNat_ne)
open Verif.Mount (Mounted)
open Verif.Digest (Md5)
open Verif.Spec.Bodyfile (Each endOf LineFor PlainTargets Known Column NameOf TimeIs)
open Verif.Spec.Digest (LowerHex Incremental)

/-! One line -/

theorem unescape_plain : ∀ {s : Bytes}, (∀ b ∈ s, b ≠ 0x5c) → Escape.unescape s = some s
  | [], _ => rfl
  | b :: s, h => by
    unfold Escape.unescape
    rw [if_pos (h b (by simp)), unescape_plain (fun x hx => h x (by simp [hx]))]
    rfl

theorem time_stored {t : Nat} : TimeIs t (timeField (Mount.signed64 t)) := by
  intro h
  unfold Mount.signed64
  rw [if_pos h]
  exact time_timeField _ (by omega)

/-- a line with a target that can be shown without escapes, and times of any sign -/
theorem line_fields {k : PathString.Codec} (hk : Lawful k) (md5 : Bytes) (hm : ∀ b ∈ md5, LowerHex b) (path name : Option (List Nat)) (hp : TextOk path) (hn : TextOk name) (v : PathString.Values)
    (ht : ∀ b ∈ linkText v.target, b ≠ 0x0a ∧ b ≠ 0x5c ∧ b ≠ 0x7c) :
    ∃ line text, PathString.bodyfileLine k md5 (path.map Utf8.encode) (name.map Utf8.encode) v = ok (line ++ [0x0a]) ∧ (0x0a : UInt8) ∉ line ∧
      Escape.fields line = [md5, text, PathString.decimal v.identifier, modeString v.mode, PathString.decimal v.owner, PathString.decimal v.group, PathString.decimal v.size, timeField v.access,
        timeField v.modification, timeField v.change, timeField v.creation] ∧
      Escape.unescape text = some (Utf8.encode (shown path name v.identifier) ++ linkText v.target) := by
  have hs := name_shown path name v.identifier hp hn
  have hmp : Plain md5 := by
    intro b hb
    have := hm b hb
    unfold LowerHex at this
    exact ⟨toNat_ne (n := 0x7c) (by decide) (by omega), toNat_ne (n := 0x5c) (by decide) (by omega)⟩
  have hml : (0x0a : UInt8) ∉ md5 := fun h => absurd (hm _ h) (by unfold LowerHex; decide)
  have htl : (0x0a : UInt8) ∉ (shown path name v.identifier).flatMap (escaped .bodyfile) := fun h => absurd (mem_flatMap_escaped hs h).1 (by decide)
  refine ⟨md5 ++ 0x7c :: ((shown path name v.identifier).flatMap (escaped .bodyfile) ++ (linkText v.target ++ tailText v)), (shown path name v.identifier).flatMap (escaped .bodyfile) ++ linkText v.target, ?_, ?_, ?_, ?_⟩
  · unfold PathString.bodyfileLine
    rw [printPath_escaped hk path name v.identifier hp hn, ok_bind]
    simp
  · have hlink : (0x0a : UInt8) ∉ linkText v.target := fun h => (ht _ h).1 rfl
    simp only [List.mem_append, List.mem_cons, not_or]
    exact ⟨hml, by decide, htl, hlink, tail_line v⟩
  · have hd := fun n => numeric_plain (numeric_decimal n)
    have hti := fun t => numeric_plain (numeric_time t)
    have hlp : Plain (linkText v.target) := fun b hb => ⟨(ht b hb).2.2, (ht b hb).2.1⟩
    rw [fields_next _ hmp, fields_name _ hs, tailText, fields_next _ hlp, fields_next _ (hd _), fields_next _ (plain_mode _).1, fields_next _ (hd _), fields_next _ (hd _), fields_next _ (hd _),
      fields_next _ (hti _), fields_next _ (hti _), fields_next _ (hti _), fields_last _ (hti _)]
    simp [Spec.Escape.prepend]
  · rw [unescape_flatMap .bodyfile _ hs, unescape_plain (fun b hb => (ht b hb).2.1)]
    rfl

/-! The inode of a file -/

/-- what is shown of an inode -/
structure ShownInode (n : Records.Inode) (v : VolumeFile) : Prop where
  mirrors : Mirrors n v
  owner : n.owner = v.fixed.owner
  group : n.group = v.fixed.group
  creation : n.creation = v.fixed.modified

theorem record_shownInode {r : Record} {v : VolumeFile} (h : InodeRecord r v) (hi : v.identifier < 2 ^ 60) : ∃ n, Records.readInode r = ok n ∧ ShownInode n v := by
  obtain ⟨fields, h1, h2, h3, h4, h5⟩ := h.value
  have hk : r.1.length = 8 := by rw [h.key, length_toLE]
  have := c37_stored_partial r.1 (by omega) (by omega) v.fixed h.fits fields h2 h3
  rw [← h1] at this
  exact ⟨_, this, ⟨(isOf_record h hi).1, rfl, rfl, rfl, rfl, rfl, rfl, rfl, h4, h5, h.fits⟩, rfl, rfl, rfl⟩

section
variable {m : Mounted} {s : Storage} {xid : Nat} {rs : List Record} {image : Nat → Option Bytes} {cipher : Option (Cipher × Cipher)} {V : View}

theorem Mounts.shows (hS : Mounts m s xid rs image cipher V) {i : Nat} (hr : Reach V.dirs i) : ∃ n, (lookups m.files).inode i = ok (some n) ∧ ShownInode n (V.file i) := by
  have hid := hS.has.identifier i hr
  have hlt : (V.file i).identifier < 2 ^ 60 := by rw [hid]; exact hS.fits hr
  obtain ⟨r, h1, h2⟩ := hS.has.inode i hr
  obtain ⟨n, h3, h4⟩ := record_shownInode h2 hlt
  have h5 := isOf_record h2 hlt
  rw [hid] at h5
  refine ⟨n, ?_, h4⟩
  show inodeByIdentifier m.files.tree m.files.xid i = _
  rw [hS.serves.tree, hS.serves.xid, (c19_lookup_partial s xid rs hS.holds i (hS.fits hr) (hS.one hr) hS.has.types).1 r h1 h5, h3]
  rfl

/-- the targets that are printed -/
theorem linkTarget_good (hL : Libraries m) (hS : Mounts m s xid rs image cipher V) {i : Nat} (hr : Reach V.dirs i) {n : Records.Inode} (hn : Mirrors n (V.file i)) {e : FileEntry.Entry}
    (he : FileEntry.Reached (V.file i).stored e) :
    FileEntry.Reached (V.file i).stored (Bodyfile.linkTarget m.una (FileRead.env m.files m.compare n) e).2 ∧
    ((V.file i).stored.attribute? symlink = none → (Bodyfile.linkTarget m.una (FileRead.env m.files m.compare n) e).1 = ok none) ∧
    ∀ target, LinksTo (V.file i) target → (Bodyfile.linkTarget m.una (FileRead.env m.files m.compare n) e).1 = ok (some (Utf8.encode target)) := by
  have hv := (hS.has.file i hr).valid
  have hh := hS.healthy hr hn
  have hsp : ∀ e, FileEntry.Reached (V.file i).stored e → ∀ t, FileEntry.target? (V.file i).stored = some t → (FileEntry.symlinkTarget (FileRead.env m.files m.compare n) e).1 = ok t :=
    fun e he => (FileEntry.symlinkTarget_spec hv (he.inv hv) hh.faithful).2.2.2 hh
  have hre : ∀ e, FileEntry.Reached (V.file i).stored e → FileEntry.Reached (V.file i).stored (FileEntry.symlinkTarget (FileRead.env m.files m.compare n) e).2 :=
    fun e he => .call (FileRead.env m.files m.compare n) .target he hh.faithful
  refine ⟨?_, fun ha => ?_, fun target ht => ?_⟩
  · unfold Bodyfile.linkTarget
    have h1 := hre e he
    cases h : FileEntry.symlinkTarget (FileRead.env m.files m.compare n) e with
    | mk a e1 =>
      rw [h] at h1
      cases a with
      | err => exact h1
      | ub => exact h1
      | ok t =>
        cases t with
        | none => exact h1
        | some t =>
          dsimp only
          cases m.una t with
          | err => exact h1
          | ub => exact h1
          | ok _ =>
            dsimp only
            have h2 := hre e1 h1
            cases h' : FileEntry.symlinkTarget (FileRead.env m.files m.compare n) e1 with
            | mk a e2 =>
              rw [h'] at h2
              cases a with
              | err => exact h2
              | ub => exact h2
              | ok t => cases t <;> exact h2
  · have h1 := hsp e he none (by unfold FileEntry.target?; rw [ha])
    unfold Bodyfile.linkTarget
    cases h : FileEntry.symlinkTarget (FileRead.env m.files m.compare n) e with
    | mk a e1 =>
      rw [h] at h1
      dsimp only at h1
      subst h1
      rfl
  · have htg : FileEntry.target? (V.file i).stored = some (some (storedName target)) := by
      unfold FileEntry.target?
      rw [ht.value]
      have h3 := ht.size
      have h4 : 0 < (storedName target).length := by simp [storedName]
      dsimp only
      rw [if_neg (by omega)]
    have h1 := hsp e he _ htg
    have h2 := hre e he
    unfold Bodyfile.linkTarget
    cases h : FileEntry.symlinkTarget (FileRead.env m.files m.compare n) e with
    | mk a e1 =>
      rw [h] at h1 h2
      dsimp only at h1 h2
      subst h1
      dsimp only
      rw [hL.names _ ht.characters]
      dsimp only
      have h3 := hsp e1 h2 _ htg
      cases h' : FileEntry.symlinkTarget (FileRead.env m.files m.compare n) e1 with
      | mk a e2 =>
        rw [h'] at h3
        dsimp only at h3
        subst h3
        dsimp only
        rw [hL.names _ ht.characters]
        rfl

/-- the size that is printed -/
theorem size_listed (hS : Mounts m s xid rs image cipher V) {i : Nat} (hr : Reach V.dirs i) {n : Records.Inode} (hn : Mirrors n (V.file i)) {e : FileEntry.Entry}
    (he : FileEntry.Reached (V.file i).stored e) : ∃ size, (V.file i).stored.size? = some size ∧ size < 2 ^ 63 ∧ (FileEntry.getSize (FileRead.env m.files m.compare n) e).1 = ok size ∧
      FileEntry.Reached (V.file i).stored (FileEntry.getSize (FileRead.env m.files m.compare n) e).2 := by
  have hh := hS.healthy hr hn
  obtain ⟨size, hs, hlt⟩ := hS.has.size i hr
  refine ⟨size, hs, hlt, ?_, .call (FileRead.env m.files m.compare n) .size he hh.faithful⟩
  refine c40_size_available _ (hS.has.file i hr).valid e he _ hh ?_ size hs
  intro mt k hk
  unfold StoredFile.size? at hs
  rw [hk] at hs
  have := Option.some.inj hs
  omega

/-- what calculates the digests: with the option, libhmac -/
def Calculates (md5 : Option Md5) (digest : Option (Bytes → Bytes)) : Prop :=
  match md5, digest with
  | none, none => True
  | some h, some d => Incremental h.Context h.start h.update h.finish d
  | _, _ => False

theorem reached_entryOf {n : Records.Inode} {v : VolumeFile} (hn : Mirrors n v) : FileEntry.Reached v.stored (FileRead.entryOf n) := by
  have := FileEntry.Reached.new (f := v.stored) n.flags (by show decide _ = decide _; rw [hn.flags])
  rwa [show v.stored.size = n.size from hn.size.symm] at this

theorem type_of_mode {n : Records.Inode} {v : VolumeFile} (hn : Mirrors n v) : n.mode / 0x1000 % 16 = v.type := by
  have := hn.fits.mode
  unfold VolumeFile.type
  rw [hn.mode]
  omega

theorem lower_zeros : ∀ b ∈ List.replicate 32 (0x30 : UInt8), LowerHex b := fun b hb => by
  cases (List.mem_replicate.1 hb).2
  exact .inl (by decide)

/-- the first column of the line of a file -/
theorem column_good (hL : Libraries m) (hS : Mounts m s xid rs image cipher V) {md5 : Option Md5} {digest : Option (Bytes → Bytes)} (hd : Calculates md5 digest) (hK : Known digest V) {i : Nat}
    (hr : Reach V.dirs i) {n : Records.Inode} (hn : Mirrors n (V.file i)) {e : FileEntry.Entry} (he : FileEntry.Reached (V.file i).stored e) :
    ∃ text, Digest.column md5.isSome n.mode (Bodyfile.md5Of m md5 n e) = ok text ∧
      Column digest (V.file i) text ∧ ∀ b ∈ text, LowerHex b := by
  have htype := type_of_mode hn
  match md5, digest, hd with
  | none, none, _ =>
    exact ⟨[0x30], rfl, rfl, fun b hb => by cases List.mem_singleton.1 hb; exact .inl (by decide)⟩
  | some h, some d, hd =>
    by_cases h8 : (V.file i).type = 8
    · cases hc : (V.file i).content with
      | none => exact absurd hc (hK (by simp) i hr h8)
      | some content =>
        obtain ⟨text, t1, t2, _⟩ := c68_column_partial hS.serves hS.holds hS.root (hS.has.file i hr) hL.codec (hS.has.content i hr content hc) (hS.compares i hr) hn.readsAs he hL.junk hd (mode := n.mode) (by omega)
        refine ⟨text, t1, ?_, t2.2⟩
        show if _ then _ else _
        rw [if_pos h8]
        exact ⟨content, hc, t2⟩
    · refine ⟨List.replicate 32 0x30, (c68_other n.mode _).2 (by omega), ?_, lower_zeros⟩
      show if _ then _ else _
      rw [if_neg h8]

/-- texts that are short enough -/
theorem textOk {cs : List Nat} (hc : PathString.Name cs) (h0 : cs ≠ []) (hl : (Utf8.encode cs).length ≤ (ssizeMax - 1) / 10) : TextOk (some cs) := by
  intro c h
  cases h
  exact ⟨hc, h0, hl⟩

/-- The line of a file entry. -/
theorem line_good (hL : Libraries m) (hS : Mounts m s xid rs image cipher V) (hP : PlainTargets V) {md5 : Option Md5} {digest : Option (Bytes → Bytes)} (hd : Calculates md5 digest) (hK : Known digest V)
    {i : Nat} (hr : Reach V.dirs i) {n : FileNode} (hn : ShownInode n.inode (V.file i)) {path name : List Nat} (hp : TextOk (some path)) (hname : TextOk (some name)) :
    ∃ line, Bodyfile.line m md5 (Utf8.encode path) (Utf8.encode name) n = ok (line ++ [0x0a]) ∧ (0x0a : UInt8) ∉ line ∧
      LineFor digest (·.fixed.created) (·.fixed.modified) (V.file i) (Utf8.encode (ownText i path name)) line := by
  obtain ⟨t1, t2, t3⟩ := linkTarget_good hL hS hr hn.mirrors (reached_entryOf hn.mirrors)
  have hid : n.inode.identifier = i := by rw [hn.mirrors.identifier, hS.has.identifier i hr]
  have htext : shown (some path) (some name) i = ownText i path name := by
    unfold shown ownText
    by_cases h2 : i = 2 <;> simp [h2]
  -- the target
  have htarget : ∃ target, (Bodyfile.linkTarget m.una (FileRead.env m.files m.compare n.inode) (FileRead.entryOf n.inode)).1 = ok target ∧
      (∀ b ∈ linkText target, b ≠ 0x0a ∧ b ≠ 0x5c ∧ b ≠ 0x7c) ∧ NameOf (V.file i) (Utf8.encode (ownText i path name)) (Utf8.encode (ownText i path name) ++ linkText target) := by
    rcases hP i hr with h | ⟨target, h, hpl⟩
    · refine ⟨none, t2 h, (by intro b hb; cases hb), (fun _ => by simp [linkText]), fun t ht => ?_⟩
      rw [ht.value] at h
      cases h
    · have hne := encode_nonzero (cs := target) h.characters
      have hcs : cString (Utf8.encode target) = Utf8.encode target := PathString.cString_eq hne
      refine ⟨some (Utf8.encode target), t3 target h, ?_, fun hno => ?_, fun t ht => ?_⟩
      · intro b hb
        have hb : b ∈ [0x20, 0x2d, 0x3e, 0x20] ++ cString (Utf8.encode target) := hb
        rw [hcs] at hb
        rcases List.mem_append.1 hb with hb | hb
        · have : ∀ b ∈ ([0x20, 0x2d, 0x3e, 0x20] : Bytes), b ≠ 0x0a ∧ b ≠ 0x5c ∧ b ≠ 0x7c := by decide
          exact this b hb
        · exact hpl b hb
      · rw [h.value] at hno
        cases hno
      · have := h.value.symm.trans ht.value
        have : Utf8.encode t = Utf8.encode target := by
          have := Option.some.inj this
          unfold storedName at this
          exact (List.append_cancel_right this).symm
        show _ ++ ([0x20, 0x2d, 0x3e, 0x20] ++ cString (Utf8.encode target)) = _
        rw [hcs, this, List.append_assoc]
  obtain ⟨target, ht1, ht2, ht3⟩ := htarget
  obtain ⟨size, s1, s2, s3, s4⟩ := size_listed hS hr hn.mirrors t1
  obtain ⟨col, c1, c2, c3⟩ := column_good hL hS hd hK hr hn.mirrors s4
  obtain ⟨line, text, l1, l2, l3, l4⟩ := line_fields hL.text col c3 (some path) (some name) hp hname (Bodyfile.values n.inode size target) ht2
  have hv : (Bodyfile.values n.inode size target).identifier = i := hid
  rw [hv, htext] at l4
  refine ⟨line, ?_, l2, col, text, _, _, _, _, _, _, _, _, _, _, size, l3, c2, l4, ht3, ?_, ?_, ?_, ?_, s1, number_decimal _, ?_, ?_, ?_, ?_⟩
  · unfold Bodyfile.line
    dsimp only
    cases hq : Bodyfile.linkTarget m.una (FileRead.env m.files m.compare n.inode) (FileRead.entryOf n.inode) with
    | mk a e =>
      rw [hq] at ht1 s3 c1
      dsimp only at ht1 s3 c1 ⊢
      subst ht1
      dsimp only
      cases hz : FileEntry.getSize (FileRead.env m.files m.compare n.inode) e with
      | mk a e' =>
        rw [hz] at s3 c1
        dsimp only at s3 c1 ⊢
        subst s3
        dsimp only
        rw [c1, ok_bind]
        exact l1
  · rw [number_decimal, ← hn.mirrors.identifier]
    rfl
  · rw [mode_letters, ← hn.mirrors.mode]
    rfl
  · rw [number_decimal, ← hn.owner]
    rfl
  · rw [number_decimal, ← hn.group]
    rfl
  · rw [← hn.mirrors.access]
    exact time_stored
  · dsimp only
    rw [← hn.mirrors.modification]
    exact time_stored
  · rw [← hn.mirrors.change]
    exact time_stored
  · dsimp only
    rw [← hn.creation]
    exact time_stored

/-! The files of a volume -/

theorem each_append {α β : Type} {R : α → β → Prop} {as as' : List α} {bs bs' : List β} (h : Each R as bs) (h' : Each R as' bs') : Each R (as ++ as') (bs ++ bs') := by
  induction h with
  | nil => exact h'
  | cons h _ ih => exact .cons h ih

theorem each_map {α β γ : Type} {R : γ → β → Prop} {f : α → γ} {as : List α} {bs : List β} (h : Each (fun a b => R (f a) b) as bs) : Each R (as.map f) bs := by
  induction h with
  | nil => exact .nil
  | cons h _ ih => exact .cons h ih

theorem each_imp {α β : Type} {R S : α → β → Prop} {as : List α} {bs : List β} (h : Each R as bs) (hi : ∀ a ∈ as, ∀ b, R a b → S a b) : Each S as bs := by
  induction h with
  | nil => exact .nil
  | cons h _ ih => exact .cons (hi _ (by simp) _ h) (ih fun a ha => hi a (List.mem_cons_of_mem _ ha))

theorem each_length {α β : Type} {R : α → β → Prop} {as : List α} {bs : List β} (h : Each R as bs) : bs.length = as.length := by
  induction h with
  | nil => rfl
  | cons _ _ ih => simp [ih]

/-- each of these is what follows the last line feed, if there is one -/
def NoFeed (ls : List Bytes) : Prop := ∀ l ∈ ls, (0x0a : UInt8) ∉ l

/-- the sub file entries, one after the other -/
theorem each_lines {γ : Type} {f : Records.DirectoryRecord → Out} {h : DirEntry → Records.DirectoryRecord} {g : DirEntry → List γ} {R : γ → Bytes → Prop} {entries : List DirEntry}
    (he : ∀ e ∈ entries, ∃ ls : List Bytes, f (h e) = (ls.flatMap (· ++ [0x0a]), ok ()) ∧ NoFeed ls ∧ Each R (g e) ls) :
    ∃ ls : List Bytes, FileRead.each f (entries.map h) = (ls.flatMap (· ++ [0x0a]), ok ()) ∧ NoFeed ls ∧ Each R (entries.flatMap g) ls := by
  induction entries with
  | nil => exact ⟨[], rfl, (fun _ h => by cases h), .nil⟩
  | cons e entries ih =>
    obtain ⟨l1, a1, a2, a3⟩ := he e (by simp)
    obtain ⟨l2, b1, b2, b3⟩ := ih (fun e he' => he e (List.mem_cons_of_mem _ he'))
    refine ⟨l1 ++ l2, ?_, ?_, each_append a3 b3⟩
    · rw [List.map_cons, FileRead.each, a1, b1, List.flatMap_append]
      rfl
    · intro l hl
      rcases List.mem_append.1 hl with h | h
      · exact a2 l h
      · exact b2 l h

/-- the line of a file -/
abbrev Lined (digest : Option (Bytes → Bytes)) (V : View) (i : Nat) (path line : Bytes) : Prop := LineFor digest (·.fixed.created) (·.fixed.modified) (V.file i) path line

theorem sub_placed (hL : Libraries m) (hS : Mounts m s xid rs image cipher V) {ident : Nat} (hr : Reach V.dirs ident) {e : DirEntry} (he : e ∈ V.dirs ident) {before : List Nat} (hb : PathString.Name before)
    (h0 : before ≠ []) :
    ∃ n, subNode (lookups m.files) (NameLookup.recordOf V.format e) = ok n ∧ Placed m.una n e.identifier before e.name ∧ ShownInode n.inode (V.file e.identifier) := by
  have hv := (hS.has.hierarchy.directory ident hr).valid e he
  obtain ⟨i, h1, h2⟩ := hS.shows (.step hr he)
  refine ⟨{ inode := i, record := some (NameLookup.recordOf V.format e) }, ?_, ⟨?_, ?_, hb, h0, hv.name, fun _ => hS.has.hierarchy.named ident hr e he⟩, h2⟩
  · unfold subNode
    rw [show (NameLookup.recordOf V.format e).identifier = e.identifier from rfl, h1]
  · show i.identifier = _
    rw [h2.mirrors.identifier, hS.has.identifier _ (.step hr he)]
  · exact hL.names e.name hv.name

theorem listing_prints (hL : Libraries m) (hS : Mounts m s xid rs image cipher V) (hP : PlainTargets V) {md5 : Option Md5} {digest : Option (Bytes → Bytes)} (hd : Calculates md5 digest) (hK : Known digest V)
    (levels : Nat) : ∀ {ident : Nat} (_ : Reach V.dirs ident) (_ : ∀ p, Chain V.dirs ident p → p.length ≤ levels) {before name : List Nat} {n : FileNode} (_ : Placed m.una n ident before name)
    (_ : name ≠ []) (_ : ShownInode n.inode (V.file ident)) (_ : (Utf8.encode before).length + (Utf8.encode name).length + 1 + 1024 * levels ≤ (ssizeMax - 1) / 10) (depth : Nat) (_ : levels < depth),
    ∃ (l : Bytes) (ls : List Bytes), Bodyfile.listing m md5 depth (Utf8.encode before) n = ((l :: ls).flatMap (· ++ [0x0a]), ok ()) ∧ NoFeed (l :: ls) ∧
      Lined digest V ident (Utf8.encode (ownText ident before name)) l ∧
      Each (fun p x => Lined digest V (endOf p) (Utf8.encode (innerText ident before name ++ pathText p)) x) (paths V.dirs levels ident) ls := by
  -- a call is a line and the sub file entries
  have step : ∀ {ident : Nat} (_ : Reach V.dirs ident) {before name : List Nat} {n : FileNode} (_ : Placed m.una n ident before name) (_ : name ≠ []) (_ : ShownInode n.inode (V.file ident))
      (_ : (Utf8.encode before).length + (Utf8.encode name).length + 1 ≤ (ssizeMax - 1) / 10) (depth : Nat),
      ∃ l, Bodyfile.listing m md5 (depth + 1) (Utf8.encode before) n = Out.andThen (l ++ [0x0a], ok ())
        (FileRead.each (fun r => Out.need (subNode (lookups m.files) r) fun s => Bodyfile.listing m md5 depth (Utf8.encode (innerText ident before name)) s) ((V.dirs ident).map (NameLookup.recordOf V.format))) ∧
        (0x0a : UInt8) ∉ l ∧ Lined digest V ident (Utf8.encode (ownText ident before name)) l := by
    intro ident hr before name n hn hname hs hl depth
    have hpath := takeWhile_nonzero (encode_nonzero hn.front)
    obtain ⟨l, l1, l2, l3⟩ := line_good hL hS hP hd hK hr hs (textOk hn.front hn.started (by omega)) (textOk hn.characters hname (by omega))
    refine ⟨l, ?_, l2, l3⟩
    rw [Bodyfile.listing, hn.identifier, directory_listed hS.ofTree hS.holds (hS.has.hierarchy.directory ident hr), hn.reads]
    simp only [Out.need, hpath, l1]
    by_cases h2 : ident = 2
    · simp only [h2, ne_eq, not_true_eq_false, if_false, innerText]
    · simp only [ne_eq, h2, not_false_eq_true, if_true, innerText, encode_append, encode_slash]
  induction levels with
  | zero =>
    intro ident hr hc before name n hn hname hs hl depth hdep
    cases depth with
    | zero => omega
    | succ depth =>
      have : V.dirs ident = [] := by
        cases hd : V.dirs ident with
        | nil => rfl
        | cons e es => exact absurd (hc [e] (.step (by rw [hd]; simp) (.here _))) (by simp)
      obtain ⟨l, l1, l2, l3⟩ := step hr hn hname hs (by omega) depth
      refine ⟨l, [], ?_, ?_, l3, .nil⟩
      · rw [l1, this]
        simp [FileRead.each, Out.andThen]
      · intro x hx
        cases List.mem_singleton.1 hx
        exact l2
  | succ levels ih =>
    intro ident hr hc before name n hn hname hs hl depth hdep
    cases depth with
    | zero => omega
    | succ depth =>
      obtain ⟨l, l1, l2, l3⟩ := step hr hn hname hs (by omega) depth
      obtain ⟨i1, i2, i3⟩ := innerText_ok hn
      obtain ⟨ls, s1, s2, s3⟩ := each_lines (f := fun r => Out.need (subNode (lookups m.files) r) fun s => Bodyfile.listing m md5 depth (Utf8.encode (innerText ident before name)) s)
        (h := NameLookup.recordOf V.format) (g := fun e => [e] :: (paths V.dirs levels e.identifier).map (e :: ·))
        (R := fun p x => Lined digest V (endOf p) (Utf8.encode (innerText ident before name ++ pathText p)) x) (entries := V.dirs ident) (by
        intro e he
        obtain ⟨k, k1, k2, k3⟩ := sub_placed hL hS hr he i1 i2
        have hv := ((hS.has.hierarchy.directory ident hr).valid e he).size
        have h2 := not_root hr he hc
        obtain ⟨x, xs, x1, x2, x3, x4⟩ := ih (.step hr he) (fun p hp => by have := hc (e :: p) (.step he hp); simpa using this) k2 (hS.has.hierarchy.named ident hr e he) k3 (by omega) depth (by omega)
        refine ⟨x :: xs, ?_, x2, .cons ?_ (each_map (each_imp x4 fun p hp b hb => ?_))⟩
        · simp only [k1, Out.need]
          exact x1
        · rw [show ownText e.identifier (innerText ident before name) e.name = innerText ident before name ++ e.name by unfold ownText; rw [if_pos h2]] at x3
          exact x3
        · have hp0 := (mem_paths.1 hp).1
          rw [show innerText e.identifier (innerText ident before name) e.name = innerText ident before name ++ e.name ++ [0x2f] by rw [innerText, if_pos h2]] at hb
          have he1 : endOf (e :: p) = endOf p := by
            unfold endOf
            rw [List.getLast?_cons]
            cases hq : p.getLast? with
            | none => exact absurd (List.getLast?_eq_none_iff.1 hq) hp0
            | some _ => rfl
          rw [he1, pathText_cons hp0, show innerText ident before name ++ (e.name ++ 0x2f :: pathText p) = innerText ident before name ++ e.name ++ [0x2f] ++ pathText p by simp]
          exact hb)
      refine ⟨l, ls, ?_, ?_, l3, s3⟩
      · rw [l1, s1]
        simp [Out.andThen]
      · intro x hx
        rcases List.mem_cons.1 hx with rfl | hx
        · exact l2
        · exact s2 x hx

/-- **C69.** The bodyfile of a volume has one line for the root directory and one for each path below it, in the order of the listing. From each line the path, the target of a symbolic link, the identifier,
mode, owner, group, size and times of the file and the digest of its contents can be read. The time of modification is in the column for that of creation and the other way round (`c69_swapped`); targets of symbolic
links without the characters that would need escapes, times after 1970, and contents that can be read. -/
theorem c69_lines_partial (hL : Libraries m) (hS : Mounts m s xid rs image cipher V) (hP : PlainTargets V) {md5 : Option Md5} {digest : Option (Bytes → Bytes)} (hd : Calculates md5 digest) (hK : Known digest V)
    {levels : Nat} (hc : ∀ p, Chain V.dirs 2 p → p.length ≤ levels) (hlev : levels < 2 ^ 48) {before : Bytes} (hb : Prefix before) (depth : Nat) (hdep : levels < depth) :
    ∃ root out, (lookups m.files).inode 2 = ok (some root) ∧ Bodyfile.listing m md5 depth before { inode := root, record := none } = (out, ok ()) ∧
      Each (fun p line => LineFor digest (·.fixed.created) (·.fixed.modified) (V.file (endOf p)) (before ++ Utf8.encode (pathText p)) line) ([] :: paths V.dirs levels 2) (Escape.lines out) := by
  have hbn := name_ascii hb.ascii
  have henc : Utf8.encode (before.map UInt8.toNat) = before := PathString.encode_ascii before (fun b hb' => (hb.ascii b hb').2)
  have hne : before.map UInt8.toNat ≠ [] := by simpa using hb.started
  obtain ⟨root, r1, r2⟩ := hS.shows .root
  obtain ⟨n1, n2, n3⟩ := hS.has.named 2 .root
  have hp : Placed m.una { inode := root, record := none } 2 (before.map UInt8.toNat) (V.file 2).name := by
    refine ⟨by show root.identifier = _; rw [r2.mirrors.identifier, hS.has.identifier 2 .root], ?_, hbn, hne, n2, fun h => absurd rfl h⟩
    show (match root.name with | none => err | some b => m.una b) = _
    rw [r2.mirrors.name]
    exact hL.names _ n2
  have hs := hb.short
  have hbound : 4096 + 65535 + 1 + 1024 * levels ≤ (ssizeMax - 1) / 10 := by unfold ssizeMax; omega
  obtain ⟨l, ls, l1, l2, l3, l4⟩ := listing_prints hL hS hP hd hK levels .root hc hp n1 r2 (by rw [henc]; omega) depth hdep
  rw [henc] at l1
  refine ⟨root, _, r1, l1, ?_⟩
  rw [PathString.lines_append _ l2]
  refine .cons ?_ (each_imp l4 fun p _ x hx => ?_)
  · rw [show ownText 2 (before.map UInt8.toNat) (V.file 2).name = before.map UInt8.toNat from rfl, henc] at l3
    rw [show pathText [] = [] from rfl, show Utf8.encode [] = [] from rfl, List.append_nil]
    exact l3
  · rw [show innerText 2 (before.map UInt8.toNat) (V.file 2).name = before.map UInt8.toNat from rfl, encode_append, henc] at hx
    exact hx

theorem each_both {α β : Type} {R S : α → β → Prop} {as : List α} {bs : List β} (h : Each R as bs) (h' : Each S as bs) {a : α} (ha : a ∈ as) : ∃ b, R a b ∧ S a b := by
  induction h with
  | nil => cases ha
  | cons h _ ih =>
    cases h' with
    | cons h1 h2 =>
      rcases List.mem_cons.1 ha with rfl | ha
      · exact ⟨_, h, h1⟩
      · exact ih h2 ha

/-- **C69**, where times of modification are those of creation: nothing is in the wrong column. -/
theorem c69_untouched (hL : Libraries m) (hS : Mounts m s xid rs image cipher V) (hP : PlainTargets V) {md5 : Option Md5} {digest : Option (Bytes → Bytes)} (hd : Calculates md5 digest) (hK : Known digest V)
    {levels : Nat} (hc : ∀ p, Chain V.dirs 2 p → p.length ≤ levels) (hlev : levels < 2 ^ 48) {before : Bytes} (hb : Prefix before) (depth : Nat) (hdep : levels < depth)
    (ht : ∀ i, (V.file i).fixed.created = (V.file i).fixed.modified) :
    ∃ root out, (lookups m.files).inode 2 = ok (some root) ∧ Bodyfile.listing m md5 depth before { inode := root, record := none } = (out, ok ()) ∧
      Each (fun p line => LineFor digest (·.fixed.modified) (·.fixed.created) (V.file (endOf p)) (before ++ Utf8.encode (pathText p)) line) ([] :: paths V.dirs levels 2) (Escape.lines out) := by
  obtain ⟨root, out, h1, h2, h3⟩ := c69_lines_partial hL hS hP hd hK hc hlev hb depth hdep
  refine ⟨root, out, h1, h2, each_imp h3 fun p _ line hline => ?_⟩
  unfold LineFor at hline ⊢
  dsimp only at hline ⊢
  rw [ht] at hline
  rw [ht]
  exact hline

/-- **C69, refuted**: where a file was modified after it was created, the columns for these times are wrong. -/
theorem c69_swapped (hL : Libraries m) (hS : Mounts m s xid rs image cipher V) (hP : PlainTargets V) {md5 : Option Md5} {digest : Option (Bytes → Bytes)} (hd : Calculates md5 digest) (hK : Known digest V)
    {levels : Nat} (hc : ∀ p, Chain V.dirs 2 p → p.length ≤ levels) (hlev : levels < 2 ^ 48) {before : Bytes} (hb : Prefix before) (depth : Nat) (hdep : levels < depth)
    {p : List DirEntry} (hp : Chain V.dirs 2 p) (h1 : (V.file (endOf p)).fixed.created < 2 ^ 63) (h2 : (V.file (endOf p)).fixed.modified < 2 ^ 63)
    (hne : (V.file (endOf p)).fixed.created ≠ (V.file (endOf p)).fixed.modified) :
    ∃ root out, (lookups m.files).inode 2 = ok (some root) ∧ Bodyfile.listing m md5 depth before { inode := root, record := none } = (out, ok ()) ∧
      ¬ Each (fun p line => LineFor digest (·.fixed.modified) (·.fixed.created) (V.file (endOf p)) (before ++ Utf8.encode (pathText p)) line) ([] :: paths V.dirs levels 2) (Escape.lines out) := by
  obtain ⟨root, out, r1, r2, r3⟩ := c69_lines_partial hL hS hP hd hK hc hlev hb depth hdep
  refine ⟨root, out, r1, r2, fun h => ?_⟩
  have hmem : p ∈ [] :: paths V.dirs levels 2 := by
    by_cases h0 : p = []
    · rw [h0]; exact List.mem_cons_self ..
    · exact List.mem_cons_of_mem _ (mem_paths.2 ⟨h0, hp, hc p hp⟩)
  obtain ⟨line, a, b⟩ := each_both r3 h hmem
  obtain ⟨_, _, _, _, _, _, _, _, _, _, _, _, _, f1, _, _, _, _, _, _, _, _, _, _, t1, _, _⟩ := a
  obtain ⟨_, _, _, _, _, _, _, _, _, _, _, _, _, f2, _, _, _, _, _, _, _, _, _, _, t2, _, _⟩ := b
  rw [f1] at f2
  simp only [List.cons.injEq, and_true] at f2
  obtain ⟨_, _, _, _, _, _, _, _, e, _, _⟩ := f2
  have t1 := t1 h1
  have t2 := t2 h2
  rw [← e, t1] at t2
  have := Option.some.inj t2
  dsimp only at this
  omega

end

/-! Whatever the data is -/

/-- file entries inside a file entry, as they are found, with the paths for them -/
inductive Inside (m : Mounted) : Bytes → FileNode → Bytes → FileNode → Prop
  | here (path : Bytes) (n : FileNode) : Inside m path n path n
  | step {path path' name : Bytes} {n sub n' : FileNode} {children : List Records.DirectoryRecord} {r : Records.DirectoryRecord} (hc : (lookups m.files).directory n.inode.identifier = ok children) (hr : r ∈ children)
      (hn : nodeName m.una n = ok name) (hs : subNode (lookups m.files) r = ok sub)
      (rest : Inside m (if n.inode.identifier ≠ 2 then path.takeWhile (· ≠ 0) ++ name ++ [0x2f] else path.takeWhile (· ≠ 0)) sub path' n') : Inside m path n path' n'

theorem each_all {f : Records.DirectoryRecord → Out} {l : List Records.DirectoryRecord} (h : (FileRead.each f l).2 = ok ()) {r : Records.DirectoryRecord} (hr : r ∈ l) :
    (f r).2 = ok () ∧ ∃ a b, (FileRead.each f l).1 = a ++ (f r).1 ++ b := by
  induction l with
  | nil => cases hr
  | cons x l ih =>
    unfold FileRead.each Out.andThen at h ⊢
    cases hx : (f x).2 with
    | err => rw [hx] at h; dsimp only at h; rw [hx] at h; cases h
    | ub => rw [hx] at h; dsimp only at h; rw [hx] at h; cases h
    | ok u =>
      rw [hx] at h
      dsimp only at h ⊢
      rcases List.mem_cons.1 hr with rfl | hr
      · exact ⟨hx, [], (FileRead.each f l).1, by simp⟩
      · obtain ⟨h1, a, b, h2⟩ := ih h hr
        exact ⟨h1, (f x).1 ++ a, b, by rw [h2]; simp⟩

theorem need_ok {α : Type} {r : Res α} {f : α → Out} (h : (Out.need r f).2 = ok ()) : ∃ a, r = ok a ∧ (f a).2 = ok () ∧ Out.need r f = f a := by
  cases r with
  | err => cases h
  | ub => cases h
  | ok a => exact ⟨a, rfl, h, rfl⟩

/-- the parts of a listing that succeeds -/
theorem listing_parts {m : Mounted} {md5 : Option Md5} {depth : Nat} {path : Bytes} {n : FileNode} (h : (Bodyfile.listing m md5 depth path n).2 = ok ()) :
    ∃ d children name text, depth = d + 1 ∧ (lookups m.files).directory n.inode.identifier = ok children ∧ nodeName m.una n = ok name ∧ Bodyfile.line m md5 (path.takeWhile (· ≠ 0)) name n = ok text ∧
      (∃ rest, (Bodyfile.listing m md5 depth path n).1 = text ++ rest) ∧
      ∀ r ∈ children, ∃ sub, subNode (lookups m.files) r = ok sub ∧
        (Bodyfile.listing m md5 d (if n.inode.identifier ≠ 2 then path.takeWhile (· ≠ 0) ++ name ++ [0x2f] else path.takeWhile (· ≠ 0)) sub).2 = ok () ∧
        ∃ a b, (Bodyfile.listing m md5 depth path n).1 =
          a ++ (Bodyfile.listing m md5 d (if n.inode.identifier ≠ 2 then path.takeWhile (· ≠ 0) ++ name ++ [0x2f] else path.takeWhile (· ≠ 0)) sub).1 ++ b := by
  cases depth with
  | zero => cases h
  | succ d =>
    rw [Bodyfile.listing] at h ⊢
    obtain ⟨children, c1, h, e1⟩ := need_ok h
    rw [e1]
    obtain ⟨name, c2, h, e2⟩ := need_ok h
    rw [e2]
    obtain ⟨text, c3, h, e3⟩ := need_ok h
    dsimp only
    rw [e3]
    refine ⟨d, children, name, text, rfl, c1, c2, c3, ⟨_, rfl⟩, fun r hr => ?_⟩
    obtain ⟨h1, a, b, h2⟩ := each_all (h : (FileRead.each _ children).2 = ok ()) hr
    obtain ⟨sub, s1, s2, s3⟩ := need_ok h1
    refine ⟨sub, s1, s2, text ++ a, b, ?_⟩
    rw [s3] at h2
    show text ++ (FileRead.each _ children).1 = _
    rw [h2]
    simp

/-- **C69, no silent omissions.** Whatever the data is and whatever fails, if the program does not report an error then the line of every file entry that is found is in its output. -/
theorem c69_no_omission {m : Mounted} {md5 : Option Md5} {path path' : Bytes} {n n' : FileNode} (hi : Inside m path n path' n') : ∀ {depth : Nat}, (Bodyfile.listing m md5 depth path n).2 = ok () →
    ∃ name text a b, nodeName m.una n' = ok name ∧ Bodyfile.line m md5 (path'.takeWhile (· ≠ 0)) name n' = ok text ∧ (Bodyfile.listing m md5 depth path n).1 = a ++ text ++ b := by
  induction hi with
  | here path n =>
    intro depth h
    obtain ⟨_, _, name, text, _, _, h2, h3, ⟨rest, h4⟩, _⟩ := listing_parts h
    exact ⟨name, text, [], rest, h2, h3, by rw [h4]; rfl⟩
  | step hc hr hn hs _ ih =>
    intro depth h
    obtain ⟨d, _, _, _, _, h1, h2, _, _, h5⟩ := listing_parts h
    rw [hc] at h1
    cases h1
    rw [hn] at h2
    cases h2
    obtain ⟨_, s1, s2, a, b, s3⟩ := h5 _ hr
    rw [hs] at s1
    cases s1
    obtain ⟨name, text, a', b', t1, t2, t3⟩ := ih s2
    exact ⟨name, text, a ++ a', b' ++ b, t1, t2, by rw [s3, t3]; simp⟩

section
variable {m : Mounted} {s : Storage} {xid : Nat} {rs : List Record} {image : Nat → Option Bytes} {cipher : Option (Cipher × Cipher)} {V : View}

/-- file entries for a path -/
theorem inside_chain (hL : Libraries m) (hS : Mounts m s xid rs image cipher V) {ident : Nat} {p : List DirEntry} (hp : Chain V.dirs ident p) : ∀ (_ : Reach V.dirs ident) {before name : List Nat} {n : FileNode}
    (_ : Placed m.una n ident before name) (_ : ShownInode n.inode (V.file ident)) (target : Nat) (_ : (p.getLast?.map (·.identifier)).getD ident = target),
    ∃ path' n', Inside m (Utf8.encode before) n path' n' ∧ Reach V.dirs target ∧ ShownInode n'.inode (V.file target) := by
  induction hp with
  | here i =>
    intro hr before name n hn hs target ht
    simp at ht
    subst ht
    exact ⟨_, n, .here _ n, hr, hs⟩
  | step he rest ih =>
    rename_i i e es
    intro hr before name n hn hs target ht
    obtain ⟨i1, i2, _⟩ := innerText_ok hn
    obtain ⟨k, k1, k2, k3⟩ := sub_placed hL hS hr he i1 i2
    obtain ⟨path', n', h1, h2⟩ := ih (.step hr he) k2 k3 target (by
      rw [List.getLast?_cons] at ht
      cases h : es.getLast? <;> rw [h] at ht <;> simpa using ht)
    refine ⟨path', n', .step ?_ (List.mem_map.2 ⟨e, he, rfl⟩) hn.reads k1 ?_, h2⟩
    · rw [hn.identifier]
      exact directory_listed hS.ofTree hS.holds (hS.has.hierarchy.directory i hr)
    · rw [hn.identifier, takeWhile_nonzero (encode_nonzero hn.front)]
      by_cases h2 : i = 2
      · rw [if_neg (not_not_intro h2)]
        rw [innerText, if_neg (not_not_intro h2)] at h1
        exact h1
      · rw [if_pos h2]
        rw [innerText, if_pos h2, encode_append, encode_append, encode_slash] at h1
        exact h1

/-- **C69, refuted for LZFSE**: with digests, one regular file that is compressed with LZFSE makes the program fail, wherever it is in the volume. -/
theorem c69_lzfse (hL : Libraries m) (hS : Mounts m s xid rs image cipher V) (h : Md5) {p : List DirEntry} (hp : Chain V.dirs 2 p) (h8 : (V.file (endOf p)).type = 8) {method size : Nat}
    (hm : method = 11 ∨ method = 12) (hk : (V.file (endOf p)).stored.kind = .compressed method size) {before : Bytes} (hb : Prefix before) (depth : Nat) :
    ∃ root, (lookups m.files).inode 2 = ok (some root) ∧ (Bodyfile.listing m (some h) depth before { inode := root, record := none }).2 ≠ ok () := by
  have hbn := name_ascii hb.ascii
  have henc : Utf8.encode (before.map UInt8.toNat) = before := PathString.encode_ascii before (fun b hb' => (hb.ascii b hb').2)
  obtain ⟨root, r1, r2⟩ := hS.shows .root
  obtain ⟨n1, n2, n3⟩ := hS.has.named 2 .root
  have hpl : Placed m.una { inode := root, record := none } 2 (before.map UInt8.toNat) (V.file 2).name := by
    refine ⟨by show root.identifier = _; rw [r2.mirrors.identifier, hS.has.identifier 2 .root], ?_, hbn, by simpa using hb.started, n2, fun h => absurd rfl h⟩
    show (match root.name with | none => err | some b => m.una b) = _
    rw [r2.mirrors.name]
    exact hL.names _ n2
  refine ⟨root, r1, fun hok => ?_⟩
  obtain ⟨path', n', i1, i2, i3⟩ := inside_chain hL hS hp .root hpl r2 (endOf p) rfl
  rw [henc] at i1
  obtain ⟨name, text, _, _, _, t2, _⟩ := c69_no_omission i1 hok
  obtain ⟨z, s1, s2⟩ := hS.has.size _ i2
  have hz : size = z := by
    unfold StoredFile.size? at s1
    rw [hk] at s1
    exact Option.some.inj s1
  subst hz
  have hv := (hS.has.file _ i2).valid
  have hh := hS.healthy i2 i3.mirrors
  obtain ⟨e1, _, _⟩ := linkTarget_good hL hS i2 i3.mirrors (reached_entryOf i3.mirrors)
  have hcol := fun e he => c68_lzfse (F := m.files) (compare := m.compare) (i := n'.inode) hv (e := e) he hh hm (by omega) hk m.unpack h m.junk (mode := n'.inode.mode) (by rw [type_of_mode i3.mirrors]; exact h8)
  unfold Bodyfile.line at t2
  dsimp only at t2
  cases hq : Bodyfile.linkTarget m.una (FileRead.env m.files m.compare n'.inode) (FileRead.entryOf n'.inode) with
  | mk a e =>
    rw [hq] at t2 e1
    cases a with
    | err => cases t2
    | ub => cases t2
    | ok target =>
      dsimp only at t2 e1
      have e2 : FileEntry.Reached _ (FileEntry.getSize (FileRead.env m.files m.compare n'.inode) e).2 := .call (FileRead.env m.files m.compare n'.inode) .size e1 hh.faithful
      cases hz : FileEntry.getSize (FileRead.env m.files m.compare n'.inode) e with
      | mk a e' =>
        rw [hz] at t2 e2
        cases a with
        | err => cases t2
        | ub => cases t2
        | ok sz =>
          dsimp only at t2 e2
          rw [show Bodyfile.md5Of m (some h) n'.inode e' = Digest.ofFile m.unpack h m.files m.compare m.junk n'.inode e' from rfl, show (some h).isSome = true from rfl, hcol e' e2, err_bind] at t2
          cases t2

/-- **C69, a volume.** Paths begin with the identifier of the volume. -/
theorem c69_volume_partial (hL : Libraries m) (hS : Mounts m s xid rs image cipher V) (hP : PlainTargets V) {md5 : Option Md5} {digest : Option (Bytes → Bytes)} (hd : Calculates md5 digest) (hK : Known digest V)
    {levels : Nat} (hc : ∀ p, Chain V.dirs 2 p → p.length ≤ levels) (hlev : levels < 2 ^ 48) {v : Bodyfile.ListedVolume} (hv : v.files = ok m) (hu : v.uuid.length = 16) (depth : Nat) (hdep : levels < depth) :
    ∃ out, Bodyfile.volume md5 depth v = (out, ok ()) ∧
      Each (fun p line => LineFor digest (·.fixed.created) (·.fixed.modified) (V.file (endOf p)) (0x2f :: uuidText v.uuid ++ [0x2f] ++ Utf8.encode (pathText p)) line) ([] :: paths V.dirs levels 2) (Escape.lines out) := by
  obtain ⟨root, out, h1, h2, h3⟩ := c69_lines_partial hL hS hP hd hK hc hlev (prefix_uuid hu) depth hdep
  refine ⟨out, ?_, h3⟩
  unfold Bodyfile.volume
  rw [hv]
  simp only [Out.need]
  rw [h1]
  exact h2

end

/-! Volumes of a container -/

section
variable {md5 : Option Md5} {depth : Nat}

/-- a volume with what is written for it -/
def Writes (md5 : Option Md5) (depth : Nat) (v : Res Bodyfile.ListedVolume) (out : Bytes) : Prop := ∃ p, v = ok p ∧ Bodyfile.volume md5 depth p = (out, ok ())

theorem volumes_all {vs : List (Res Bodyfile.ListedVolume × Bytes)} (h : ∀ v ∈ vs, Writes md5 depth v.1 v.2) (rest : List (Res Bodyfile.ListedVolume)) (index : Nat) :
    Bodyfile.volumes md5 depth 0 index (vs.map (·.1) ++ rest) = Out.andThen (vs.flatMap (·.2), ok ()) (Bodyfile.volumes md5 depth 0 (index + vs.length) rest) := by
  induction vs generalizing index with
  | nil => simp [andThen_ok]
  | cons v vs ih =>
    obtain ⟨p, h1, h2⟩ := h v (by simp)
    rw [List.map_cons, List.cons_append, Bodyfile.volumes, if_neg (by simp), h1]
    simp only [Out.need]
    rw [h2, ih (fun v hv => h v (List.mem_cons_of_mem _ hv)), andThen_ok, andThen_ok, andThen_ok, List.flatMap_cons, List.append_assoc, List.length_cons]
    rw [show index + 1 + vs.length = index + (vs.length + 1) by omega]

/-- **C69, containers.** Where the lines of each volume can be written, all are, in order, and there is nothing else in the bodyfile. -/
theorem c69_volumes {vs : List (Res Bodyfile.ListedVolume × Bytes)} (h : ∀ v ∈ vs, Writes md5 depth v.1 v.2) : Bodyfile.bodyfile md5 depth 0 (vs.map (·.1)) = (vs.flatMap (·.2), ok ()) := by
  unfold Bodyfile.bodyfile
  rw [if_neg (by omega)]
  have := volumes_all h [] 0
  rw [List.append_nil] at this
  rw [this]
  simp [Bodyfile.volumes, andThen_ok]

/-- **C69, volumes that fail**: the volumes behind one that cannot be obtained or opened are not written, but the program reports the error. -/
theorem c69_volume_fails {vs : List (Res Bodyfile.ListedVolume × Bytes)} (h : ∀ v ∈ vs, Writes md5 depth v.1 v.2) {w : Res Bodyfile.ListedVolume} (hw : w = err ∨ ∃ u, w = ok u ∧ u.files = err)
    (rest : List (Res Bodyfile.ListedVolume)) : Bodyfile.bodyfile md5 depth 0 (vs.map (·.1) ++ w :: rest) = (vs.flatMap (·.2), err) := by
  unfold Bodyfile.bodyfile
  rw [if_neg (by omega), volumes_all h _ 0, Bodyfile.volumes, if_neg (by simp)]
  rcases hw with rfl | ⟨u, rfl, hu⟩
  · simp [Out.need, Out.andThen]
  · simp only [Out.need, Bodyfile.volume, hu]
    simp [Out.andThen]

theorem volumes_written : ∀ {vs : List (Res Bodyfile.ListedVolume)} {index : Nat}, (Bodyfile.volumes md5 depth 0 index vs).2 = ok () → ∀ v ∈ vs,
    ∃ p out a b, v = ok p ∧ Bodyfile.volume md5 depth p = (out, ok ()) ∧ (Bodyfile.volumes md5 depth 0 index vs).1 = a ++ out ++ b
  | [], _, _, _, hv => nomatch hv
  | x :: vs, index, h, v, hv => by
    rw [Bodyfile.volumes, if_neg (by simp)] at h ⊢
    unfold Out.andThen at h ⊢
    cases hx : (Out.need x (Bodyfile.volume md5 depth)).2 with
    | err => rw [hx] at h; dsimp only at h; rw [hx] at h; cases h
    | ub => rw [hx] at h; dsimp only at h; rw [hx] at h; cases h
    | ok u =>
      rw [hx] at h
      dsimp only at h ⊢
      rcases List.mem_cons.1 hv with rfl | hv
      · obtain ⟨p, p1, p2, p3⟩ := need_ok hx
        exact ⟨p, (Bodyfile.volume md5 depth p).1, [], (Bodyfile.volumes md5 depth 0 (index + 1) vs).1, p1, by rw [← p2], by rw [p3]; simp⟩
      · obtain ⟨p, out, a, b, h1, h2, h3⟩ := volumes_written h v hv
        exact ⟨p, out, (Out.need x (Bodyfile.volume md5 depth)).1 ++ a, b, h1, h2, by rw [h3]; simp⟩

/-- **C69, no silent omissions of volumes.** If the program does not report an error then each volume was obtained, opened and written. -/
theorem c69_no_volume_omitted {vs : List (Res Bodyfile.ListedVolume)} (h : (Bodyfile.bodyfile md5 depth 0 vs).2 = ok ()) : ∀ v ∈ vs,
    ∃ p m out a b, v = ok p ∧ p.files = ok m ∧ Bodyfile.volume md5 depth p = (out, ok ()) ∧ (Bodyfile.bodyfile md5 depth 0 vs).1 = a ++ out ++ b := by
  intro v hv
  unfold Bodyfile.bodyfile at h ⊢
  rw [if_neg (by omega)] at h ⊢
  obtain ⟨p, out, a, b, h1, h2, h3⟩ := volumes_written h v hv
  obtain ⟨m, hm, _, _⟩ := need_ok (show (Out.need p.files _).2 = ok () by
    have := congrArg Prod.snd h2
    exact this)
  exact ⟨p, m, out, a, b, h1, hm, h2, h3⟩

theorem volumes_other : ∀ (vs : List (Res Bodyfile.ListedVolume)) (selected i : Nat), selected ≠ 0 → selected < i + 1 → Bodyfile.volumes md5 depth selected i vs = ([], ok ())
  | [], _, _, _, _ => rfl
  | _ :: vs, selected, i, h0, h => by rw [Bodyfile.volumes, if_pos (by omega), volumes_other vs selected (i + 1) h0 (by omega)]

theorem volumes_selected {vs : List (Res Bodyfile.ListedVolume)} {j index : Nat} {v : Res Bodyfile.ListedVolume} {out : Bytes} (hv : vs[j]? = some v) (h : Writes md5 depth v out) :
    Bodyfile.volumes md5 depth (index + j + 1) index vs = (out, ok ()) := by
  induction vs generalizing j index with
  | nil => cases hv
  | cons w vs ih =>
    rw [Bodyfile.volumes]
    cases j with
    | zero =>
      cases hv
      obtain ⟨p, h1, h2⟩ := h
      rw [if_neg (by omega), h1]
      simp only [Out.need]
      rw [h2, andThen_ok, volumes_other vs _ _ (by omega) (by omega)]
      simp
    | succ j =>
      rw [if_pos (by omega)]
      have := ih (j := j) (index := index + 1) (by simpa using hv)
      rwa [show index + 1 + j + 1 = index + (j + 1) + 1 by omega] at this

/-- **C69, one volume.** With a file system index only that volume is written; others may fail. -/
theorem c69_selected {vs : List (Res Bodyfile.ListedVolume)} {j : Nat} {v : Res Bodyfile.ListedVolume} {out : Bytes} (hv : vs[j]? = some v) (h : Writes md5 depth v out) :
    Bodyfile.bodyfile md5 depth (j + 1) vs = (out, ok ()) := by
  have hl := (List.getElem?_eq_some_iff.1 hv).1
  unfold Bodyfile.bodyfile
  rw [if_neg (by omega)]
  have := volumes_selected (index := 0) hv h
  rwa [Nat.zero_add] at this

end
end Verif.Props
