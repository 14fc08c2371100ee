import Verif.Model.PyVolume
import Verif.Props.C56
/-!
# C66 A volume in Python

Python programs that use the volume objects of pyfsapfs see the files of the volume, whatever they ask and in whatever order.
-/
namespace Verif.Props
open Verif Res Spec BTree FsTree FileRead
open Verif.Mount (Mounted)
open Verif.PyVolume (Obj argument returned)
open Verif.Spec.Py (Seen Walk Text Refused unknown Ask)

section
variable {m : Mounted} {s : Storage} {xid : Nat} {rs : List Record} {image : Nat → Option Bytes} {cipher : Option (Cipher × Cipher)} {V : View}

/-- the inode of a file as it is read, with the fields that fsapfsmount does not use -/
structure InodeShows (n : Records.Inode) (v : VolumeFile) : Prop where
  mirrors : Mirrors n v
  creation : n.creation = v.fixed.modified
  links : n.links = v.fixed.links
  owner : n.owner = v.fixed.owner
  group : n.group = v.fixed.group

theorem record_shows {r : Record} {v : VolumeFile} (h : InodeRecord r v) (hi : v.identifier < 2 ^ 60) : ∃ n, Records.readInode r = ok n ∧ InodeShows n v := by
  obtain ⟨n, h1, h2⟩ := record_mirrors h hi
  refine ⟨n, h1, ?_⟩
  obtain ⟨fields, g1, g2, g3, g4, g5⟩ := h.value
  have hk : r.1.length = 8 := by rw [h.key, length_toLE]
  have := c37_stored_partial r.1 (by omega) (by omega) v.fixed h.fits fields g2 g3
  rw [← g1] at this
  rw [show (r.1, r.2) = r from rfl, h1] at this
  have := Res.ok.inj this
  subst this
  exact ⟨h2, rfl, rfl, rfl, rfl⟩

/-- the record of a file in the volume -/
theorem Mounts.shown (hS : Mounts m s xid rs image cipher V) {i : Nat} (hr : Reach V.dirs i) : ∃ r ∈ rs, IsOf i 3 r ∧ ∃ n, Records.readInode r = ok n ∧ InodeShows n (V.file i) := by
  have hid := hS.has.identifier i hr
  have hlt : (V.file i).identifier < 2 ^ 60 := by rw [hid]; exact hS.fits hr
  obtain ⟨r, h1, h2⟩ := hS.has.inode i hr
  exact ⟨r, h1, hid ▸ isOf_record h2 hlt, record_shows h2 hlt⟩

theorem Mounts.identified (hS : Mounts m s xid rs image cipher V) {i : Nat} (hr : Reach V.dirs i) : ∃ n, FileRead.byIdentifier m.files i = ok (some n) ∧ InodeShows n (V.file i) := by
  obtain ⟨r, h1, h2, n, h3, h4⟩ := hS.shown hr
  refine ⟨n, ?_, h4⟩
  unfold FileRead.byIdentifier
  rw [hS.serves.tree, hS.serves.xid, (c19_lookup_partial s xid rs hS.holds i (hS.fits hr) (hS.one hr) hS.has.types).1 r h1 h2, h3]
  rfl

theorem Mounts.unidentified (hS : Mounts m s xid rs image cipher V) {i : Nat} (hi : i < 2 ^ 60) (h : ∀ r ∈ rs, ¬ IsOf i 3 r) : FileRead.byIdentifier m.files i = ok none := by
  unfold FileRead.byIdentifier
  rw [hS.serves.tree, hS.serves.xid]
  refine (c19_lookup_partial s xid rs hS.holds i hi (List.pairwise_of_forall_mem_list fun a ha b _ hab => h a ha hab.1) hS.has.types).2 h

/-! ## objects -/

/-- an object of a file -/
structure GoodObj (V : View) (x : Seen) (o : Obj) : Prop where
  reach : Reach V.dirs x.identifier
  shows : InodeShows o.node.inode (V.file x.identifier)
  record : o.node.record = x.entry.map (NameLookup.recordOf V.format)
  valid : ∀ e ∈ x.entry, e.Valid
  entry : FileEntry.Reached (V.file x.identifier).stored o.entry

theorem goodObj_new {x : Seen} {n : FileNode} (hr : Reach V.dirs x.identifier) (hn : InodeShows n.inode (V.file x.identifier)) (hc : n.record = x.entry.map (NameLookup.recordOf V.format))
    (hv : ∀ e ∈ x.entry, e.Valid) : GoodObj V x (.new n) := by
  refine ⟨hr, hn, hc, hv, ?_⟩
  have := FileEntry.Reached.new (f := (V.file x.identifier).stored) n.inode.flags (by show decide _ = decide _; rw [hn.mirrors.flags])
  rwa [show (V.file x.identifier).stored.size = n.inode.size from hn.mirrors.size.symm] at this

/-! ## paths -/

theorem encode_cons (c : Nat) (a : List Nat) : Utf8.encode (c :: a) = Utf8.encodeChar c ++ Utf8.encode a := rfl

theorem encode_slash_cons (a : List Nat) : Utf8.encode (0x2f :: a) = 0x2f :: Utf8.encode a := rfl

theorem encode_joined : ∀ names : List (List Nat), Utf8.encode (joinNames 0x2f names) = joinNames 0x2f (names.map Utf8.encode)
  | [] => rfl
  | [_] => rfl
  | n :: n' :: names => by
    have ih := encode_joined (n' :: names)
    show Utf8.encode (n ++ 0x2f :: joinNames 0x2f (n' :: names)) = Utf8.encode n ++ 0x2f :: joinNames 0x2f ((n' :: names).map Utf8.encode)
    rw [encode_append, encode_slash_cons, ih]

theorem encode_path (leading trailing : Bool) (names : List (List Nat)) : Utf8.encode (pathString 0x2f leading trailing names) = pathString 0x2f leading trailing (names.map Utf8.encode) := by
  unfold pathString
  rw [encode_append, encode_append, encode_joined]
  cases leading <;> cases trailing <;> rfl

/-- where names lead -/
theorem walk_found (hL : Libraries m) (hS : Mounts m s xid rs image cipher V) {x : Seen} {names : List (List Nat)} {t : Option Seen} (hw : Walk V x names t) (hr : Reach V.dirs x.identifier)
    (hn : ∀ n ∈ names, Component V.format n) (record : Option Records.DirectoryRecord) :
    match t with
    | some y => Reach V.dirs y.identifier ∧ ∃ es, Hierarchy m.text.decoder rs V.format x.identifier (names.map Utf8.encode) es ∧
        (match es.getLast? with | some e => y = ⟨e.identifier, some e⟩ ∧ e.Valid | none => y = x)
    | none => ∃ pre q more es, names = pre ++ q :: more ∧ Hierarchy m.text.decoder rs V.format x.identifier (pre.map Utf8.encode) es ∧ Reach V.dirs (lastEntry V.format x.identifier record es).1 ∧
        ∀ e ∈ V.dirs (lastEntry V.format x.identifier record es).1, ¬ SameName V.format.caseInsensitive q e.name := by
  induction hw generalizing record with
  | here x => exact ⟨hr, [], .here _, rfl⟩
  | @step x e names t he rest ih =>
    have hr' : Reach V.dirs e.identifier := .step hr he
    have hi := ih hr' (fun n h => hn n (List.mem_cons_of_mem _ h)) (some (NameLookup.recordOf V.format e))
    obtain ⟨strHash, hq⟩ := component_query hL hS hr (hn e.name (by simp))
    have hstep : ∀ {strs es}, Hierarchy m.text.decoder rs V.format e.identifier strs es → Hierarchy m.text.decoder rs V.format x.identifier (Utf8.encode e.name :: strs) (e :: es) :=
      fun h => .step (hS.fits hr) (hS.has.hierarchy.directory _ hr) he hq (hS.has.unique _ hr) h
    cases t with
    | some y =>
      obtain ⟨h1, es, h2, h3⟩ := hi
      refine ⟨h1, e :: es, hstep h2, ?_⟩
      cases hl : es.getLast? with
      | none =>
        rw [List.getLast?_eq_none_iff] at hl
        subst hl
        exact ⟨h3, (hS.has.hierarchy.directory _ hr).valid e he⟩
      | some e' =>
        rw [hl] at h3
        rw [List.getLast?_cons, hl]
        exact h3
    | none =>
      obtain ⟨pre, q, more, es, h1, h2, h3, h4⟩ := hi
      exact ⟨e.name :: pre, q, more, e :: es, by rw [h1]; rfl, hstep h2, h3, h4⟩
  | @missing x name names h => exact ⟨[], name, names, [], rfl, .here _, hr, h⟩

theorem component_scalar {f : NameFormat} {n : List Nat} (h : Component f n) {c : Nat} (hc : c ∈ n) : Scalar c ∧ c ≠ 0 := ⟨(h.characters c hc).1, (h.characters c hc).2.1⟩

theorem joined_scalar {f : NameFormat} : ∀ {names : List (List Nat)}, (∀ n ∈ names, Component f n) → ∀ c ∈ joinNames 0x2f names, Scalar c ∧ c ≠ 0
  | [], _, c, hc => by cases hc
  | [n], h, c, hc => component_scalar (h n (by simp)) hc
  | n :: n' :: names, h, c, hc => by
    rcases List.mem_append.1 hc with hc | hc
    · exact component_scalar (h n (by simp)) hc
    · rcases List.mem_cons.1 hc with rfl | hc
      · decide
      · exact joined_scalar (fun x hx => h x (List.mem_cons_of_mem _ hx)) c hc

theorem path_argument {f : NameFormat} {names : List (List Nat)} (h : ∀ n ∈ names, Component f n) (leading trailing : Bool) :
    argument (pathString 0x2f leading trailing names) = some (pathString 0x2f leading trailing (names.map Utf8.encode)) := by
  unfold argument
  rw [if_pos, encode_path]
  intro c hc
  unfold pathString at hc
  rcases List.mem_append.1 hc with hc | hc
  · cases leading
    · cases hc
    · rw [List.mem_singleton.1 hc]; decide
  · rcases List.mem_append.1 hc with hc | hc
    · exact joined_scalar h c hc
    · cases trailing
      · cases hc
      · rw [List.mem_singleton.1 hc]; decide

/-- what a lookup returns -/
def LookupGives (V : View) (r : Res (Option FileNode)) : Option Seen → Prop
  | some y => ∃ n, r = ok (some n) ∧ GoodObj V y (.new n)
  | none => r = ok none

/-- the starting point itself -/
theorem byPath_here (hS : Mounts m s xid rs image cipher V) {i : Nat} (hr : Reach V.dirs i) {t : List Nat} {b : Bytes} (ha : argument t = some b) (hb : b.length = 0 ∨ b.length = 1) :
    LookupGives V (PyVolume.byPath m i t) (some ⟨i, none⟩) := by
  obtain ⟨_, _, d, hfr, _⟩ := hS.holds.tree
  have hroot := fsRootNode_ok hfr
  obtain ⟨r, h1, h2, n, h3, h4⟩ := hS.shown hr
  refine ⟨{ inode := n, record := none }, ?_, goodObj_new hr h4 rfl (fun e he => by cases he)⟩
  unfold PyVolume.byPath NameLookup.lookupPath
  rw [ha]
  simp only
  rw [require_true (by omega), ok_bind, hS.serves.tree, hroot, ok_bind]
  simp only
  rw [if_pos hb]
  simp only [pure_eq, ok_bind]
  have hi := (c19_lookup_partial s xid rs hS.holds i (hS.fits hr) (hS.one hr) hS.has.types).1 r h1 h2
  unfold inodeByIdentifier at hi
  rw [hS.serves.xid]
  cases he : fsEntry (volumeOf s) xid i 3 with
  | err => rw [he, h3] at hi; cases hi
  | ub => rw [he, h3] at hi; cases hi
  | ok e =>
    rw [he, ok_bind] at hi
    rw [ok_bind]
    cases e with
    | none => rw [h3] at hi; cases hi
    | some e =>
      simp only at hi ⊢
      rw [h3] at hi
      cases hre : Records.readInode e with
      | err => rw [hre] at hi; cases hi
      | ub => rw [hre] at hi; cases hi
      | ok x => rw [hre] at hi; cases hi; rfl

theorem byPath_text (hL : Libraries m) (hS : Mounts m s xid rs image cipher V) {x : Seen} (hr : Reach V.dirs x.identifier) {t : List Nat} {y : Option Seen} (ht : Text V x t y) :
    LookupGives V (PyVolume.byPath m x.identifier t) y := by
  cases ht with
  | slash => exact byPath_here hS hr (b := [0x2f]) (by decide) (.inr rfl)
  | empty => exact byPath_here hS hr (b := []) (by decide) (.inl rfl)
  | @path names _ leading trailing h0 hn h1 h2 hw =>
    obtain ⟨_, _, d, hfr, _⟩ := hS.holds.tree
    have hroot := fsRootNode_ok hfr
    have hseg : ∀ n ∈ names.map Utf8.encode, NameLookup.IsSegment m.text.decoder n := by
      intro n hm
      obtain ⟨x, h1, rfl⟩ := List.mem_map.1 hm
      exact component_segment hL (hn x h1)
    rw [encode_path] at h1 h2
    have hlead := walk_found hL hS hw hr hn none
    unfold PyVolume.byPath
    rw [path_argument hn]
    simp only
    rw [hS.serves.tree, hS.serves.xid, hS.folding]
    cases y with
    | some y =>
      obtain ⟨hr', es, hh, hy⟩ := hlead
      have hes : es ≠ [] := by
        rintro rfl
        cases names with
        | nil => exact h0 rfl
        | cons => cases hh
      obtain ⟨a, e, rfl⟩ : ∃ a e, es = a ++ [e] := ⟨es.dropLast, es.getLast hes, (List.dropLast_concat_getLast hes).symm⟩
      rw [List.getLast?_concat] at hy
      obtain ⟨rfl, hv⟩ := hy
      obtain ⟨r, g1, g2, n, g3, g4⟩ := hS.shown hr'
      refine ⟨{ inode := n, record := some (NameLookup.recordOf V.format e) }, ?_, goodObj_new hr' g4 rfl (fun e' he => by cases he; exact hv)⟩
      rw [c22_resolves (lawful_readsUtf8 hL) _ (lawful_separator hL.text) hS.holds hroot hh hseg leading trailing h1 h2 (hS.fits hr') (hS.one hr') hS.has.types g1 g2, g3]
      rfl
    | none =>
      obtain ⟨pre, q, more, es, rfl, hh, hr', hno⟩ := hlead
      obtain ⟨strHash, hq⟩ := component_query hL hS hr' (hn q (by simp))
      simp only [List.map_append, List.map_cons] at hseg h1 h2 ⊢
      show _ = ok none
      rw [c22_missing (lawful_readsUtf8 hL) _ (lawful_separator hL.text) hS.holds hroot hh (hS.fits hr') (hS.has.hierarchy.directory _ hr') hq hno hseg leading trailing h1 h2]
      rfl

theorem argument_refused {t : List Nat} (h : Refused t) : argument t = none := by
  obtain ⟨c, hc, h⟩ := h
  unfold argument
  rw [if_neg]
  intro hall
  have := hall c hc
  rcases h with h | h
  · exact h this.1
  · exact this.2 h

theorem argument_accepted {t : List Nat} (h : ¬ Refused t) : argument t = some (Utf8.encode t) := by
  unfold argument
  rw [if_pos]
  intro c hc
  refine ⟨?_, fun h0 => h ⟨c, hc, .inr h0⟩⟩
  by_cases hs : Scalar c
  · exact hs
  · exact absurd ⟨c, hc, .inl hs⟩ h

/-! ## requests -/

/-- the objects of a program -/
structure Goods (V : View) (hs : List (Option Seen)) (os : List Obj) : Prop where
  length : hs.length = os.length
  good : ∀ (k : Nat) (x : Seen), hs[k]? = some (some x) → ∃ o, os[k]? = some o ∧ GoodObj V x o

theorem Goods.push {hs : List (Option Seen)} {os : List Obj} (h : Goods V hs os) {x : Option Seen} {o : Obj} (ho : ∀ y ∈ x, GoodObj V y o) : Goods V (hs ++ [x]) (os ++ [o]) := by
  refine ⟨by simp [h.length], fun k y hk => ?_⟩
  by_cases hlt : k < hs.length
  · rw [List.getElem?_append_left hlt] at hk
    rw [List.getElem?_append_left (h.length ▸ hlt)]
    exact h.good k y hk
  · rw [List.getElem?_append_right (by omega)] at hk
    rw [List.getElem?_append_right (by have := h.length; omega), ← h.length]
    cases hd : k - hs.length with
    | zero =>
      rw [hd] at hk
      cases hk
      exact ⟨o, rfl, ho y rfl⟩
    | succ n =>
      rw [hd] at hk
      cases hk

theorem Goods.set {hs : List (Option Seen)} {os : List Obj} (h : Goods V hs os) {k : Nat} {o : Obj} (ho : ∀ y, hs[k]? = some (some y) → GoodObj V y o) : Goods V hs (os.set k o) := by
  refine ⟨by simp [h.length], fun j y hj => ?_⟩
  obtain ⟨o', h1, h2⟩ := h.good j y hj
  have hlt : j < os.length := (List.getElem?_eq_some_iff.1 h1).1
  by_cases hjk : k = j
  · subst hjk
    exact ⟨o, by rw [List.getElem?_set_self hlt], ho y hj⟩
  · exact ⟨o', by rw [List.getElem?_set_ne hjk]; exact h1, h2⟩

theorem returned_gives {hs : List (Option Seen)} {os : List Obj} (h : Goods V hs os) {r : Res (Option FileNode)} {t : Option Seen} (hr : LookupGives V r t) :
    (returned os r).1 = (Py.found hs t).1 ∧ Goods V (Py.found hs t).2 (returned os r).2 := by
  cases t with
  | none =>
    have hr : r = ok none := hr
    subst hr
    exact ⟨rfl, h⟩
  | some y =>
    obtain ⟨n, rfl, hn⟩ := hr
    exact ⟨rfl, h.push fun z hz => by cases hz; exact hn⟩

theorem returned_unknown {hs : List (Option Seen)} {os : List Obj} (h : Goods V hs os) (r : Res (Option FileNode)) : Goods V (unknown hs (returned os r).1) (returned os r).2 := by
  cases r with
  | ok r =>
    cases r with
    | none => exact h
    | some n => exact h.push fun z hz => by cases hz
  | err => exact h
  | ub => exact h

theorem byPath_refused (i : Nat) {t : List Nat} (h : Refused t) : PyVolume.byPath m i t = err := by
  unfold PyVolume.byPath
  rw [argument_refused h]

theorem text_ne (decode : Bytes → Option (List Nat)) (b : Bytes) : PyVolume.text decode b ≠ .object := by
  unfold PyVolume.text
  split <;> simp

theorem target_ne (decode : Bytes → Option (List Nat)) (r : Res (Option Bytes)) : PyVolume.target m decode r ≠ .object := by
  unfold PyVolume.target
  split
  · split
    · exact text_ne _ _
    · simp
    · simp
  · simp
  · simp
  · simp

theorem call_ne (decode : Bytes → Option (List Nat)) (o : Obj) (a : Ask) : (PyVolume.call m decode o a).1 ≠ .object := by
  cases a with
  | field k f =>
    show PyVolume.field o.node f ≠ _
    cases f <;> simp [PyVolume.field]
    split <;> simp
  | name k =>
    show PyVolume.name m decode o.node ≠ _
    unfold PyVolume.name
    split
    · exact text_ne _ _
    · simp
    · simp
  | target k => exact target_ne _ _
  | size k =>
    unfold PyVolume.call
    simp only
    split <;> simp
  | has k n =>
    unfold PyVolume.call
    simp only
    split
    · simp
    · simp only
      split <;> simp
  | _ => simp [PyVolume.call]

theorem callAt_ne (decode : Bytes → Option (List Nat)) (k : Nat) (a : Ask) (os : List Obj) : (PyVolume.callAt m decode k a os).1 ≠ .object := by
  unfold PyVolume.callAt
  split
  · simp
  · exact call_ne _ _ _

theorem unknown_ne (hs : List (Option Seen)) {r : Py.Reply} (h : r ≠ .object) : unknown hs r = hs := by
  unfold unknown
  split
  · exact absurd rfl h
  · rfl

theorem callAt_unknown {hs : List (Option Seen)} {os : List Obj} (h : Goods V hs os) (decode : Bytes → Option (List Nat)) {k : Nat} (hk : ∀ x, hs[k]? ≠ some (some x)) (a : Ask) :
    Goods V (unknown hs (PyVolume.callAt m decode k a os).1) (PyVolume.callAt m decode k a os).2 := by
  rw [unknown_ne hs (callAt_ne _ _ _ _)]
  unfold PyVolume.callAt
  split
  · exact h
  · exact h.set fun y hy => absurd hy (hk y)

theorem callAt_known {os : List Obj} {k : Nat} {o : Obj} (ho : os[k]? = some o) (decode : Bytes → Option (List Nat)) (a : Ask) :
    PyVolume.callAt m decode k a os = ((PyVolume.call m decode o a).1, os.set k { o with entry := (PyVolume.call m decode o a).2 }) := by
  unfold PyVolume.callAt
  rw [ho]

theorem callAt_good {hs : List (Option Seen)} {os : List Obj} (h : Goods V hs os) {k : Nat} {x : Seen} (hk : hs[k]? = some (some x)) {o : Obj}
    (hg : GoodObj V x o) {e : FileEntry.Entry} (he : FileEntry.Reached (V.file x.identifier).stored e) : Goods V hs (os.set k { o with entry := e }) := by
  refine h.set fun y hy => ?_
  rw [hk] at hy
  cases hy
  exact ⟨hg.reach, hg.shows, hg.record, hg.valid, he⟩

theorem signed_eq : Mount.signed64 = Py.signed := rfl

theorem field_good {x : Seen} {o : Obj} (hg : GoodObj V x o) (f : Py.Field) : PyVolume.field o.node f = Py.value .shown (V.file x.identifier) x.entry f := by
  have hm := hg.shows.mirrors
  cases f with
  | identifier => show Py.Reply.int _ = .int _; rw [hm.identifier]
  | parent => show Py.Reply.int _ = .int _; rw [hm.parent]
  | created => show Py.Reply.int (Mount.signed64 _) = .int (Py.signed (V.file x.identifier).fixed.modified); rw [hg.shows.creation, signed_eq]
  | modified => show Py.Reply.int (Mount.signed64 _) = .int (Py.signed (V.file x.identifier).fixed.created); rw [hm.modification, signed_eq]
  | changed => show Py.Reply.int (Mount.signed64 _) = .int (Py.signed _); rw [hm.change, signed_eq]
  | accessed => show Py.Reply.int (Mount.signed64 _) = .int (Py.signed _); rw [hm.access, signed_eq]
  | added =>
    unfold PyVolume.field Py.value
    simp only
    rw [hg.record]
    cases x.entry <;> rfl
  | links => show Py.Reply.int _ = .int _; rw [hg.shows.links]
  | owner => show Py.Reply.int _ = .int _; rw [hg.shows.owner]
  | group => show Py.Reply.int _ = .int _; rw [hg.shows.group]
  | mode => show Py.Reply.int _ = .int _; rw [hm.mode]

/-- what CPython does with the UTF-8 of a string -/
def DecodesUtf8 (decode : Bytes → Option (List Nat)) : Prop := ∀ cs, (∀ c ∈ cs, Scalar c) → decode (Utf8.encode cs) = some cs

theorem name_good (hL : Libraries m) {decode : Bytes → Option (List Nat)} (hD : DecodesUtf8 decode) (hS : Mounts m s xid rs image cipher V) {x : Seen} {o : Obj} (hg : GoodObj V x o) :
    PyVolume.name m decode o.node = .text ((x.entry.map (·.name)).getD (V.file x.identifier).name) := by
  unfold PyVolume.name FileRead.nodeName
  rw [hg.record]
  cases he : x.entry with
  | none =>
    obtain ⟨_, h2, _⟩ := hS.has.named _ hg.reach
    simp only [Option.map_none]
    rw [hg.shows.mirrors.name]
    simp only
    rw [hL.names _ h2]
    simp only [PyVolume.text]
    rw [hD _ fun c hc => (h2 c hc).1]
    rfl
  | some e =>
    have hv := hg.valid e he
    simp only [Option.map_some]
    rw [show (NameLookup.recordOf V.format e).name = storedName e.name from rfl, hL.names _ hv.name]
    simp only [PyVolume.text]
    rw [hD _ fun c hc => (hv.name c hc).1]
    rfl

theorem size_good (hS : Mounts m s xid rs image cipher V) {x : Seen} {o : Obj} (hg : GoodObj V x o) :
    ∃ n, (V.file x.identifier).stored.size? = some n ∧ (FileEntry.getSize (o.env m) o.entry).1 = ok n := by
  have hh := hS.healthy hg.reach hg.shows.mirrors
  have hv := (hS.has.file _ hg.reach).valid
  obtain ⟨n, hn, hlt⟩ := hS.has.size _ hg.reach
  have hk : ∀ mt k, (V.file x.identifier).stored.kind = .compressed mt k → k ≠ 2 ^ 64 - 1 := by
    intro mt k hk
    unfold StoredFile.size? at hn
    rw [hk] at hn
    have := Option.some.inj hn
    omega
  exact ⟨n, hn, c40_size_available _ hv o.entry hg.entry _ hh hk n hn⟩

theorem has_good (hS : Mounts m s xid rs image cipher V) {x : Seen} {o : Obj} (hg : GoodObj V x o) (name : Bytes) :
    (FileEntry.attributeByName (o.env m) name o.entry).1 = ok ((FileEntry.named (V.file x.identifier).stored name).map FileEntry.attr) := by
  have hh := hS.healthy hg.reach hg.shows.mirrors
  have hv := (hS.has.file _ hg.reach).valid
  exact (FileEntry.attributeByName_spec hv (hg.entry.inv hv) hh.faithful name).2.2.2 hh

theorem target_good (hL : Libraries m) {decode : Bytes → Option (List Nat)} (hD : DecodesUtf8 decode) (hS : Mounts m s xid rs image cipher V) {hs : List (Option Seen)} {k : Nat} {x : Seen}
    (hk : hs[k]? = some (some x)) {o : Obj} (hg : GoodObj V x o) (stored : Nat → Prop) :
    Py.Step .shown V stored hs (.target k) (PyVolume.target m decode (FileEntry.symlinkTarget (o.env m) o.entry).1) hs := by
  have hv := (hS.has.file _ hg.reach).valid
  have hh := hS.healthy hg.reach hg.shows.mirrors
  have hsp := (FileEntry.symlinkTarget_spec hv (hg.entry.inv hv) hh.faithful).2.2.2 hh
  have hsp : ∀ t, FileEntry.target? (V.file x.identifier).stored = some t → (FileEntry.symlinkTarget (o.env m) o.entry).1 = ok t := hsp
  cases ha : (V.file x.identifier).stored.attribute? symlink with
  | none =>
    rw [hsp none (by unfold FileEntry.target?; rw [ha])]
    exact .targetNone hk ha
  | some v =>
    by_cases hl : ∃ target, LinksTo (V.file x.identifier) target
    · obtain ⟨target, ht⟩ := hl
      have hval := ht.value
      rw [ha] at hval
      cases hval
      rw [hsp (some (storedName target)) (by
        unfold FileEntry.target?
        rw [ha]
        have h3 := ht.size
        have h4 : 0 < (storedName target).length := by simp [storedName]
        simp only
        rw [if_neg (by omega)])]
      unfold PyVolume.target
      simp only
      rw [hL.names _ ht.characters]
      simp only [PyVolume.text]
      rw [hD _ fun c hc => (ht.characters c hc).1]
      exact .target hk ht
    · exact .targetOther hk (fun target ht => hl ⟨target, ht⟩) (by rw [ha]; simp) (target_ne _ _)

/-- the identifiers of the files in a volume -/
def InVolume (rs : List Record) (i : Nat) : Prop := ∃ r ∈ rs, IsOf i 3 r

theorem lookup_step (hL : Libraries m) (hS : Mounts m s xid rs image cipher V) {hs : List (Option Seen)} {os : List Obj} (h : Goods V hs os) {x : Seen} (hr : Reach V.dirs x.identifier)
    (t : List Nat) : (∃ y, Text V x t y ∧ (returned os (PyVolume.byPath m x.identifier t)).1 = (Py.found hs y).1 ∧ Goods V (Py.found hs y).2 (returned os (PyVolume.byPath m x.identifier t)).2) ∨
      (Refused t ∧ returned os (PyVolume.byPath m x.identifier t) = (.raises, os)) ∨ ((∀ y, ¬ Text V x t y) ∧ ¬ Refused t) := by
  by_cases h1 : ∃ y, Text V x t y
  · obtain ⟨y, hy⟩ := h1
    exact .inl ⟨y, hy, returned_gives h (byPath_text hL hS hr hy)⟩
  · by_cases h2 : Refused t
    · exact .inr (.inl ⟨h2, by rw [byPath_refused _ h2]; rfl⟩)
    · exact .inr (.inr ⟨fun y hy => h1 ⟨y, hy⟩, h2⟩)

theorem identifier_argument {n : Nat} (h : n < 2 ^ 60) : ((n : Int) % (2 : Int) ^ 64).toNat = n := by omega

/-- one request -/
theorem ask_step (hL : Libraries m) {decode : Bytes → Option (List Nat)} (hD : DecodesUtf8 decode) (hS : Mounts m s xid rs image cipher V) {hs : List (Option Seen)} {os : List Obj}
    (h : Goods V hs os) (a : Ask) : ∃ hs', Py.Step .shown V (InVolume rs) hs a (PyVolume.ask m decode os a).1 hs' ∧ Goods V hs' (PyVolume.ask m decode os a).2 := by
  have hknown : ∀ k : Nat, (∃ x o, hs[k]? = some (some x) ∧ os[k]? = some o ∧ GoodObj V x o) ∨ ∀ x, hs[k]? ≠ some (some x) := by
    intro k
    by_cases hk : ∃ x, hs[k]? = some (some x)
    · obtain ⟨x, hk⟩ := hk
      obtain ⟨o, h1, h2⟩ := h.good k x hk
      exact .inl ⟨x, o, hk, h1, h2⟩
    · exact .inr fun x hx => hk ⟨x, hx⟩
  have hother : ∀ (k : Nat) (b : Ask), (∀ x, hs[k]? ≠ some (some x)) → PyVolume.ask m decode os b = PyVolume.callAt m decode k b os →
      ((∃ s, b = .sub k s) ∨ (∃ f, b = .field k f) ∨ b = .name k ∨ b = .target k ∨ b = .size k ∨ ∃ n, b = .has k n) →
      ∃ hs', Py.Step .shown V (InVolume rs) hs b (PyVolume.ask m decode os b).1 hs' ∧ Goods V hs' (PyVolume.ask m decode os b).2 := by
    intro k b hk hb hs'
    rw [hb]
    exact ⟨_, .otherObject hk hs', callAt_unknown h decode hk b⟩
  cases a with
  | root =>
    obtain ⟨n, h1, h2⟩ := hS.identified .root
    have hr : LookupGives V (PyVolume.root m) (some ⟨2, none⟩) := by
      refine ⟨{ inode := n, record := none }, ?_, goodObj_new .root h2 rfl (fun e he => by cases he)⟩
      unfold PyVolume.root
      rw [h1]
      rfl
    have := returned_gives h hr
    refine ⟨_, ?_, this.2⟩
    show Py.Step _ _ _ _ _ (returned os (PyVolume.root m)).1 _
    rw [this.1]
    exact .root
  | path t =>
    rcases lookup_step hL hS h (x := ⟨2, none⟩) .root t with ⟨y, hy, h1, h2⟩ | ⟨hr, h1⟩ | ⟨h1, h2⟩
    · refine ⟨_, ?_, h2⟩
      show Py.Step _ _ _ _ _ (returned os (PyVolume.byPath m 2 t)).1 _
      rw [h1]
      exact .path hy
    · refine ⟨hs, ?_, ?_⟩
      · show Py.Step _ _ _ _ _ (returned os (PyVolume.byPath m 2 t)).1 _
        rw [h1]
        exact .pathRefused hr
      · show Goods V hs (returned os (PyVolume.byPath m 2 t)).2
        rw [h1]
        exact h
    · exact ⟨_, .otherPath h1 h2, returned_unknown h _⟩
  | identifier i =>
    by_cases hi : ∃ n : Nat, i = n ∧ (Reach V.dirs n ∨ (n < 2 ^ 60 ∧ ¬ InVolume rs n))
    · obtain ⟨n, rfl, hn⟩ := hi
      rcases hn with hn | ⟨hn, hno⟩
      · obtain ⟨j, h1, h2⟩ := hS.identified hn
        have hlt := hS.fits hn
        have hr : LookupGives V (PyVolume.byIdentifier m n) (some ⟨n, none⟩) := by
          refine ⟨{ inode := j, record := none }, ?_, goodObj_new hn h2 rfl (fun e he => by cases he)⟩
          unfold PyVolume.byIdentifier
          rw [identifier_argument hlt, h1]
          rfl
        have := returned_gives h hr
        refine ⟨_, ?_, this.2⟩
        show Py.Step _ _ _ _ _ (returned os (PyVolume.byIdentifier m n)).1 _
        rw [this.1]
        exact .identifier hn
      · have hr : PyVolume.byIdentifier m n = err := by
          unfold PyVolume.byIdentifier
          rw [identifier_argument hn, hS.unidentified hn fun r hr ho => hno ⟨r, hr, ho⟩]
          rfl
        refine ⟨hs, ?_, ?_⟩
        · show Py.Step _ _ _ _ _ (returned os (PyVolume.byIdentifier m n)).1 _
          rw [hr]
          exact .absent hn hno
        · show Goods V hs (returned os (PyVolume.byIdentifier m n)).2
          rw [hr]
          exact h
    · refine ⟨_, .otherIdentifier fun n hn => ⟨fun hr => hi ⟨n, hn, .inl hr⟩, fun hlt => ?_⟩, returned_unknown h _⟩
      by_cases hst : InVolume rs n
      · exact hst
      · exact absurd ⟨n, hn, .inr ⟨hlt, hst⟩⟩ hi
  | sub k t =>
    rcases hknown k with ⟨x, o, hk, ho, hg⟩ | hk
    · have hask : PyVolume.ask m decode os (.sub k t) = returned os (PyVolume.byPath m x.identifier t) := by
        unfold PyVolume.ask
        simp only
        rw [ho]
        simp only
        rw [hg.shows.mirrors.identifier, hS.has.identifier _ hg.reach]
      rw [hask]
      rcases lookup_step hL hS h hg.reach t with ⟨y, hy, h1, h2⟩ | ⟨hr, h1⟩ | ⟨h1, h2⟩
      · rw [h1]
        exact ⟨_, .sub hk hy, h2⟩
      · rw [h1]
        exact ⟨hs, .subRefused hk hr, h⟩
      · exact ⟨_, .otherSub hk h1 h2, returned_unknown h _⟩
    · refine ⟨_, .otherObject hk (.inl ⟨t, rfl⟩), ?_⟩
      unfold PyVolume.ask
      simp only
      split
      · exact h
      · exact returned_unknown h _
  | field k f =>
    rcases hknown k with ⟨x, o, hk, ho, hg⟩ | hk
    · refine ⟨hs, ?_, ?_⟩
      · show Py.Step _ _ _ _ _ (PyVolume.callAt m decode k (.field k f) os).1 _
        rw [callAt_known ho]
        show Py.Step _ _ _ _ _ (PyVolume.field o.node f) _
        rw [field_good hg]
        exact .field f hk
      · show Goods V hs (PyVolume.callAt m decode k (.field k f) os).2
        rw [callAt_known ho]
        exact callAt_good h hk hg hg.entry
    · exact hother k _ hk rfl (.inr (.inl ⟨f, rfl⟩))
  | name k =>
    rcases hknown k with ⟨x, o, hk, ho, hg⟩ | hk
    · refine ⟨hs, ?_, ?_⟩
      · show Py.Step _ _ _ _ _ (PyVolume.callAt m decode k (.name k) os).1 _
        rw [callAt_known ho]
        show Py.Step _ _ _ _ _ (PyVolume.name m decode o.node) _
        rw [name_good hL hD hS hg]
        exact .name hk
      · show Goods V hs (PyVolume.callAt m decode k (.name k) os).2
        rw [callAt_known ho]
        exact callAt_good h hk hg hg.entry
    · exact hother k _ hk rfl (.inr (.inr (.inl rfl)))
  | target k =>
    rcases hknown k with ⟨x, o, hk, ho, hg⟩ | hk
    · have hh := hS.healthy hg.reach hg.shows.mirrors
      refine ⟨hs, ?_, ?_⟩
      · show Py.Step _ _ _ _ _ (PyVolume.callAt m decode k (.target k) os).1 _
        rw [callAt_known ho]
        exact target_good hL hD hS hk hg _
      · show Goods V hs (PyVolume.callAt m decode k (.target k) os).2
        rw [callAt_known ho]
        exact callAt_good h hk hg (.call (o.env m) .target hg.entry hh.faithful)
    · exact hother k _ hk rfl (.inr (.inr (.inr (.inl rfl))))
  | size k =>
    rcases hknown k with ⟨x, o, hk, ho, hg⟩ | hk
    · have hh := hS.healthy hg.reach hg.shows.mirrors
      obtain ⟨n, h1, h2⟩ := size_good hS hg
      refine ⟨hs, ?_, ?_⟩
      · show Py.Step _ _ _ _ _ (PyVolume.callAt m decode k (.size k) os).1 _
        rw [callAt_known ho]
        unfold PyVolume.call
        simp only
        rw [h2]
        exact .size hk h1
      · show Goods V hs (PyVolume.callAt m decode k (.size k) os).2
        rw [callAt_known ho]
        exact callAt_good h hk hg (.call (o.env m) .size hg.entry hh.faithful)
    · exact hother k _ hk rfl (.inr (.inr (.inr (.inr (.inl rfl)))))
  | has k n =>
    rcases hknown k with ⟨x, o, hk, ho, hg⟩ | hk
    · have hh := hS.healthy hg.reach hg.shows.mirrors
      by_cases hr : Refused n
      · refine ⟨hs, ?_, ?_⟩
        · show Py.Step _ _ _ _ _ (PyVolume.callAt m decode k (.has k n) os).1 _
          rw [callAt_known ho]
          unfold PyVolume.call
          simp only
          rw [argument_refused hr]
          exact .hasRefused hk hr
        · show Goods V hs (PyVolume.callAt m decode k (.has k n) os).2
          rw [callAt_known ho]
          unfold PyVolume.call
          simp only
          rw [argument_refused hr]
          exact callAt_good h hk hg hg.entry
      · refine ⟨hs, ?_, ?_⟩
        · show Py.Step _ _ _ _ _ (PyVolume.callAt m decode k (.has k n) os).1 _
          rw [callAt_known ho]
          unfold PyVolume.call
          simp only
          rw [argument_accepted hr]
          simp only
          rw [has_good hS hg]
          have := Py.Step.has (T := .shown) (V := V) (stored := InVolume rs) hk hr
          rw [FileEntry.attribute?_eq, Option.isSome_map] at this
          simp only [Option.isSome_map]
          exact this
        · show Goods V hs (PyVolume.callAt m decode k (.has k n) os).2
          rw [callAt_known ho]
          unfold PyVolume.call
          simp only
          rw [argument_accepted hr]
          exact callAt_good h hk hg (.call (o.env m) (.byName (Utf8.encode n)) hg.entry hh.faithful)
    · exact hother k _ hk rfl (.inr (.inr (.inr (.inr (.inr ⟨n, rfl⟩)))))

theorem asks_trace (hL : Libraries m) {decode : Bytes → Option (List Nat)} (hD : DecodesUtf8 decode) (hS : Mounts m s xid rs image cipher V) :
    ∀ (as : List Ask) {hs : List (Option Seen)} {os : List Obj}, Goods V hs os → Py.Trace .shown V (InVolume rs) hs (PyVolume.asks m decode as os)
  | [], _, _, _ => .nil _
  | a :: as, hs, os, h => by
    obtain ⟨hs', h1, h2⟩ := ask_step hL hD hS h a
    exact .cons h1 (asks_trace hL hD hS as h2)

/-- Whatever a program asks of the objects of a volume, in whatever order, the answers are those of the files in the volume: files by path, by name and by identifier, the fields of their inodes, their names, sizes,
symbolic links, and which extended attributes they have. What is missing is that `None` is returned for an identifier that no file has, that the times of creation and modification are not swapped
(`Py.Terms.shown`), and that a name of one byte is found in a directory (`c66_one_character`). -/
theorem c66_session_partial (hL : Libraries m) {decode : Bytes → Option (List Nat)} (hD : DecodesUtf8 decode) (hS : Mounts m s xid rs image cipher V) (as : List Ask) :
    Py.Trace .shown V (InVolume rs) [] (PyVolume.asks m decode as []) := asks_trace hL hD hS as ⟨rfl, fun k x hk => by cases hk⟩

/-- An identifier that no file has raises an exception; the documentation says that `None` is returned. -/
theorem c66_absent_raises (decode : Bytes → Option (List Nat)) (hS : Mounts m s xid rs image cipher V) {i : Nat} (hi : i < 2 ^ 60) (h : ¬ InVolume rs i) (os : List Obj) :
    PyVolume.ask m decode os (.identifier i) = (.raises, os) := by
  unfold PyVolume.ask PyVolume.byIdentifier
  simp only
  rw [identifier_argument hi, hS.unidentified hi fun r hr ho => h ⟨r, hr, ho⟩]
  rfl

/-- `None` is not returned for any identifier, whatever is stored. -/
theorem c66_never_none (m : Mounted) (decode : Bytes → Option (List Nat)) (os : List Obj) (i : Int) : (PyVolume.ask m decode os (.identifier i)).1 ≠ .nothing := by
  unfold PyVolume.ask PyVolume.byIdentifier
  simp only
  cases FileRead.byIdentifier m.files (i % 2 ^ 64).toNat with
  | err => simp [returned, err_bind]
  | ub =>
    rw [show ((ub : Res (Option Records.Inode)) >>= _) = ub from rfl]
    simp [returned]
  | ok j =>
    rw [ok_bind]
    cases j <;> simp [returned]

/-- Identifiers are taken modulo 2^64: the root directory is found with 2 + 2^64, and integers that no identifier can be are not refused. -/
theorem c66_wraps (m : Mounted) (decode : Bytes → Option (List Nat)) (os : List Obj) (i k : Int) : PyVolume.ask m decode os (.identifier (i + k * 2 ^ 64)) = PyVolume.ask m decode os (.identifier i) := by
  unfold PyVolume.ask PyVolume.byIdentifier
  simp only
  rw [show (i + k * 2 ^ 64) % 2 ^ 64 = i % 2 ^ 64 by omega]

/-- A file whose name is one character of ASCII is not found in its directory: the object that is returned is that of the directory. -/
theorem c66_one_character (decode : Bytes → Option (List Nat)) (hS : Mounts m s xid rs image cipher V) {hs : List (Option Seen)} {os : List Obj} (h : Goods V hs os) {k : Nat} {x : Seen}
    (hk : hs[k]? = some (some x)) {c : Nat} (hc : 0 < c ∧ c < 0x80) :
    (PyVolume.ask m decode os (.sub k [c])).1 = .object ∧ Goods V (hs ++ [some ⟨x.identifier, none⟩]) (PyVolume.ask m decode os (.sub k [c])).2 := by
  obtain ⟨o, ho, hg⟩ := h.good k x hk
  have hask : PyVolume.ask m decode os (.sub k [c]) = returned os (PyVolume.byPath m x.identifier [c]) := by
    unfold PyVolume.ask
    simp only
    rw [ho]
    simp only
    rw [hg.shows.mirrors.identifier, hS.has.identifier _ hg.reach]
  have hsc : Scalar c := .inl (by omega)
  have ha : argument [c] = some [UInt8.ofNat c] := by
    rw [argument_accepted (by rintro ⟨d, hd, h⟩; rw [List.mem_singleton.1 hd] at h; rcases h with h | h; exact h hsc; omega)]
    show some (Utf8.encodeChar c ++ []) = _
    unfold Utf8.encodeChar
    rw [if_pos hc.2]
    rfl
  rw [hask]
  exact returned_gives h (byPath_here hS hg.reach ha (.inr rfl))

end
end Verif.Props
