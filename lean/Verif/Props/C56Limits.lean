import Verif.Props.C56
/-!
# C56 A mounted volume: where it differs from the volume

What `c56_session_partial` leaves out, for all volumes where it shows.
-/
namespace Verif.Props
open Verif Res Spec BTree FsTree FileRead
open Verif.PathString (escaped Lawful copyFrom_escaped ssizeMax cString slashed mountCopyTo_names mountCopyTo)
open Verif.Mount (Mounted Handle Session fileAt nodeAt nameOf statOf setStat)
open Verif.Spec.Fuse (Errno Reply Stat Value Request Answer)

variable {m : Mounted} {s : Storage} {xid : Nat} {rs : List Record} {image : Nat → Option Bytes} {cipher : Option (Cipher × Cipher)} {V : View}

/-! ## attributes -/

theorem stat_exact (hS : Mounts m s xid rs image cipher V) {i : Nat} (hr : Reach V.dirs i) {h : Handle} (hg : Good m (V.file i) h) : ∃ st, (statOf m h).1 = ok st ∧ (st.links = 1 ∨ st.links = 2) ∧
    (V.file i).stored.size? = some st.size ∧
    (st.links = 2 ↔ (Mount.fileMode (V.file i).fixed.mode) / 0x4000 % 2 ≠ 0) ∧ st.mode = Mount.fileMode (V.file i).fixed.mode ∧ st.access = Mount.timePair (Mount.signed64 (V.file i).fixed.accessed) ∧
    st.change = Mount.timePair (Mount.signed64 (V.file i).fixed.changed) ∧ st.modification = Mount.timePair (Mount.signed64 (V.file i).fixed.created) := by
  obtain ⟨st, h', h1, h2, _⟩ := stat_good hS hr hg
  refine ⟨st, by rw [h1], ?_⟩
  unfold statOf at h1
  cases he : FileEntry.getSize (h.env m) h.entry with
  | mk a e =>
    rw [he] at h1
    cases a with
    | err => cases h1
    | ub => cases h1
    | ok n =>
      simp only [Prod.mk.injEq] at h1
      have h1 := h1.1
      unfold setStat at h1
      obtain ⟨_, _, h1⟩ := bind_eq_ok.1 h1
      have h1 := Res.ok.inj h1
      rw [hg.mirrors.mode, hg.mirrors.access, hg.mirrors.change, hg.mirrors.modification] at h1
      refine ⟨?_, h2.size, ?_, ?_⟩
      · rw [← h1]
        show (if _ then 2 else 1) = 1 ∨ (if _ then 2 else 1) = 2
        split
        · exact .inr rfl
        · exact .inl rfl
      · rw [← h1]
        show (if _ then 2 else 1) = 2 ↔ _
        split
        · rename_i h; exact ⟨fun _ => h, fun _ => rfl⟩
        · rename_i h; exact ⟨fun h => by omega, fun h' => absurd h' h⟩
      · rw [← h1]
        exact ⟨rfl, rfl, rfl, rfl⟩

/-- what `getattr` says of a file -/
theorem getattr_exact (hL : Libraries m) (hS : Mounts m s xid rs image cipher V) (hT : V.text = shownName) {path : Bytes} {i : Nat} (hp : V.Path path (some i)) : ∃ st, Mount.getattr m path = .value st ∧
    (st.links = 1 ∨ st.links = 2) ∧ (V.file i).stored.size? = some st.size ∧
    (st.links = 2 ↔ (Mount.fileMode (V.file i).fixed.mode) / 0x4000 % 2 ≠ 0) ∧ st.mode = Mount.fileMode (V.file i).fixed.mode ∧ st.access = Mount.timePair (Mount.signed64 (V.file i).fixed.accessed) ∧
    st.change = Mount.timePair (Mount.signed64 (V.file i).fixed.changed) ∧ st.modification = Mount.timePair (Mount.signed64 (V.file i).fixed.created) := by
  obtain ⟨hr, h, h1, h2⟩ := fileAt_path hL hS hT hp
  obtain ⟨st, e1, e2⟩ := stat_exact hS hr h2
  refine ⟨st, ?_, e2⟩
  unfold Mount.getattr
  rw [h1]
  simp only
  rw [e1]
  rfl

theorem timePair_sum (t : Int) : (Mount.timePair t).1 * 1000000000 + (Mount.timePair t).2 = t := by
  unfold Mount.timePair
  simp only
  exact Int.tdiv_mul_add_tmod t 1000000000

/-- The number of links that is seen is not that of the volume if that has hard links to a file: it is always 1 or 2, and it is 2 for block devices and sockets, which have the bit of directories in their
mode. -/
theorem c56_links (hL : Libraries m) (hS : Mounts m s xid rs image cipher V) (hT : V.text = shownName) {path : Bytes} {i : Nat} (hp : V.Path path (some i))
    (hl : 2 < (V.file i).fixed.links ∨ ((V.file i).type = 8 ∧ (V.file i).fixed.links ≠ 1) ∨ (((V.file i).type = 6 ∨ (V.file i).type = 12) ∧ (V.file i).fixed.links ≠ 2)) :
    ∃ st, Mount.getattr m path = .value st ∧ st.links ≠ (V.file i).fixed.links := by
  obtain ⟨st, h1, h2, _, h3, _⟩ := getattr_exact hL hS hT hp
  refine ⟨st, h1, ?_⟩
  have hf : (V.file i).type ≠ 14 → Mount.fileMode (V.file i).fixed.mode / 0x4000 = (V.file i).type / 4 ∨ 16 ≤ (V.file i).type := by
    intro hn
    unfold VolumeFile.type at *
    unfold Mount.fileMode
    split <;> omega
  rcases hl with hl | ⟨ht, hl⟩ | ⟨ht, hl⟩
  · omega
  · have := hf (by omega)
    omega
  · have := hf (by omega)
    omega

/-- The time of modification that is seen is the time of creation. -/
theorem c56_modification (hL : Libraries m) (hS : Mounts m s xid rs image cipher V) (hT : V.text = shownName) {path : Bytes} {i : Nat} (hp : V.Path path (some i))
    (hm : (V.file i).fixed.modified ≠ (V.file i).fixed.created) : ∃ st, Mount.getattr m path = .value st ∧ ¬ PosixTime (V.file i).fixed.modified st.modification ∧
      ((V.file i).fixed.created < 2 ^ 63 → PosixTime (V.file i).fixed.created st.modification) := by
  obtain ⟨st, h1, _, _, _, _, _, _, h2⟩ := getattr_exact hL hS hT hp
  refine ⟨st, h1, ?_, fun h => by rw [h2]; exact posixTime h⟩
  rintro ⟨h3, _⟩
  obtain ⟨hr, h, _, hg⟩ := fileAt_path hL hS hT hp
  have hf := hg.mirrors.fits
  have hc := hf.created
  have hmd := hf.modified
  rw [h2, timePair_sum] at h3
  unfold Mount.signed64 at h3
  split at h3 <;> split at h3 <;> omega

/-- Times before 1970 have nanoseconds that are negative. -/
theorem c56_before_1970 (hL : Libraries m) (hS : Mounts m s xid rs image cipher V) (hT : V.text = shownName) {path : Bytes} {i : Nat} (hp : V.Path path (some i))
    (hb : 2 ^ 63 ≤ (V.file i).fixed.accessed) (hn : (2 ^ 64 - (V.file i).fixed.accessed) % 1000000000 ≠ 0) :
    ∃ st, Mount.getattr m path = .value st ∧ st.access.2 < 0 ∧ ¬ PosixTime (V.file i).fixed.accessed st.access := by
  obtain ⟨st, h1, _, _, _, _, h2, _⟩ := getattr_exact hL hS hT hp
  obtain ⟨hr, h, _, hg⟩ := fileAt_path hL hS hT hp
  have ha := hg.mirrors.fits.accessed
  have hneg : st.access.2 < 0 := by
    rw [h2]
    unfold Mount.timePair Mount.signed64
    rw [if_neg (by omega)]
    simp only
    obtain ⟨k, hk⟩ : ∃ k : Nat, (V.file i).fixed.accessed = 2 ^ 64 - k ∧ k ≤ 2 ^ 64 := ⟨2 ^ 64 - (V.file i).fixed.accessed, by omega⟩
    have he : ((V.file i).fixed.accessed : Int) - 2 ^ 64 = -(k : Int) := by omega
    have hkn : 2 ^ 64 - (V.file i).fixed.accessed = k := by omega
    rw [hkn] at hn
    rw [he, Int.neg_tmod, show ((1000000000 : Int)) = ((1000000000 : Nat) : Int) from rfl, ← Int.ofNat_tmod]
    omega
  exact ⟨st, h1, hneg, fun h => by have := h.2.1; omega⟩

/-! ## names -/

theorem nodeAt_names (hL : Libraries m) {names : List (List Nat)} (h0 : names ≠ []) (hn : ∀ n ∈ names, n ≠ [] ∧ ∀ c ∈ n, Scalar c ∧ c ≠ 0) (hl : (slashed (names.map shownName)).length < 2 ^ 63 - 1) :
    ∃ name, fileAt m (slashed (names.map shownName)) = (do
      let r ← FileRead.byPath m.text.decoder m.text.decoder 0x2f m.files (slashed (names.map Utf8.encode))
      match r with
      | none => return none
      | some r => return some (.new name { inode := r.1, record := r.2 })) := by
  have hlast : 0x2f ∉ (slashed (names.map shownName)).getLast? := by
    obtain ⟨a, n, rfl⟩ : ∃ a n, names = a ++ [n] := ⟨names.dropLast, names.getLast h0, (List.dropLast_concat_getLast h0).symm⟩
    have h1 := shownNames.nonempty n (hn n (by simp)).1
    have h2 := shownNames.slash n (hn n (by simp)).2
    unfold slashed
    rw [List.map_append, List.flatMap_append]
    simp only [List.map_cons, List.map_nil, List.flatMap_cons, List.flatMap_nil, List.append_nil]
    rw [List.getLast?_append, List.getLast?_cons_of_ne_nil h1]
    cases hg : (shownName n).getLast? with
    | none => exact absurd (List.getLast?_eq_none_iff.1 hg) h1
    | some b =>
      intro h
      have h : b = 0x2f := Option.some.inj h
      exact h2 (h ▸ List.mem_of_getLast? hg)
  have hzero : ∀ b ∈ slashed (names.map shownName), b ≠ 0 := by
    intro b hb
    obtain ⟨x, h1, h2⟩ := List.mem_flatMap.1 hb
    obtain ⟨n, h3, rfl⟩ := List.mem_map.1 h1
    rcases List.mem_cons.1 h2 with rfl | h2
    · decide
    · exact fun h => shownNames.zero n (hn n h3).2 (h ▸ h2)
  have hzero' : ∀ b ∈ slashed (names.map Utf8.encode), b ≠ 0 := by
    intro b hb
    obtain ⟨x, h1, h2⟩ := List.mem_flatMap.1 hb
    obtain ⟨n, h3, rfl⟩ := List.mem_map.1 h1
    rcases List.mem_cons.1 h2 with rfl | h2
    · decide
    · exact encode_nonzero (hn n h3).2 b h2
  have hpos : 0 < (slashed (names.map shownName)).length := by
    cases names with
    | nil => exact absurd rfl h0
    | cons n l => simp [slashed]
  have hpl : Mount.pathLength (slashed (names.map shownName)) = (slashed (names.map shownName)).length := by
    unfold Mount.pathLength
    rw [if_neg]
    rintro ⟨_, h⟩
    rw [← List.getLast?_eq_getElem?] at h
    exact hlast h
  obtain ⟨name, h1⟩ := fileAt_plain (m := m) (PathString.cString_eq hzero) hpos hpl hl
  refine ⟨name, ?_⟩
  have hcopy : mountCopyTo m.text (slashed (names.map shownName)) = ok (slashed (names.map Utf8.encode)) := mountCopyTo_names hL.text names h0 (fun n h => (hn n h).2) hl
  rw [h1]
  unfold nodeAt
  rw [hcopy, ok_bind, PathString.cString_eq hzero']
  cases FileRead.byPath m.text.decoder m.text.decoder 0x2f m.files (slashed (names.map Utf8.encode)) with
  | err => rw [err_bind, err_bind, err_bind]
  | ub => rw [ub_bind, ub_bind, ub_bind]
  | ok r => cases r <;> rfl

/-- A name with a slash, which is shown with an escape, is taken for two names: paths that are shown differently give the same attributes, whatever the volume has. -/
theorem c56_slash (hL : Libraries m) {a b : List Nat} (ha : a ≠ [] ∧ ∀ c ∈ a, Scalar c ∧ c ≠ 0) (hb : b ≠ [] ∧ ∀ c ∈ b, Scalar c ∧ c ≠ 0)
    (hl : (slashed ([a ++ 0x2f :: b].map shownName)).length < 2 ^ 63 - 1) (hl' : (slashed ([a, b].map shownName)).length < 2 ^ 63 - 1) :
    Mount.getattr m (slashed ([a ++ 0x2f :: b].map shownName)) = Mount.getattr m (slashed ([a, b].map shownName)) := by
  obtain ⟨n1, h1⟩ := nodeAt_names hL (names := [a ++ 0x2f :: b]) (by simp) (fun n hn => by
    rw [List.mem_singleton] at hn
    subst hn
    refine ⟨by simp, fun c hc => ?_⟩
    rcases List.mem_append.1 hc with hc | hc
    · exact ha.2 c hc
    · rcases List.mem_cons.1 hc with rfl | hc
      · exact ⟨by decide, by decide⟩
      · exact hb.2 c hc) hl
  obtain ⟨n2, h2⟩ := nodeAt_names hL (names := [a, b]) (by simp) (fun n hn => by
    simp only [List.mem_cons, List.not_mem_nil, or_false] at hn
    rcases hn with rfl | rfl
    · exact ha
    · exact hb) hl'
  have he : slashed ([a ++ 0x2f :: b].map Utf8.encode) = slashed ([a, b].map Utf8.encode) := by simp [slashed, Utf8.encode, Utf8.encodeChar]
  unfold Mount.getattr
  rw [h1, h2, he]
  cases FileRead.byPath m.text.decoder m.text.decoder 0x2f m.files (slashed ([a, b].map Utf8.encode)) with
  | err => rfl
  | ub => rfl
  | ok r =>
    cases r with
    | none => rfl
    | some r =>
      simp only [ok_bind, pure_eq]
      have : (statOf m (Handle.new n1 { inode := r.1, record := r.2 })).1 = (statOf m (Handle.new n2 { inode := r.1, record := r.2 })).1 := by
        unfold statOf Handle.env Handle.new
        simp only
        split <;> rfl
      rw [this]

/-- A file with such a name is in the listing of the root directory and is not found under its name, if there is no file in a directory with the first part of the name. -/
theorem c56_slash_missing (hL : Libraries m) (hS : Mounts m s xid rs image cipher V) (hT : V.text = shownName) {a b : List Nat} {e : DirEntry} (he : e ∈ V.dirs 2) (hname : e.name = a ++ 0x2f :: b)
    (ha : Component V.format a) (hb : Component V.format b) (hno : V.Path (slashed ([a, b].map shownName)) none) (hl : (slashed ([a ++ 0x2f :: b].map shownName)).length < 2 ^ 63 - 1) :
    (∃ h, Mount.openDirectory m [0x2f] = .value h ∧ ∃ l, (Mount.readDirectory m h).1 = .value l ∧ V.text e.name ∈ l.map (·.1)) ∧ Mount.getattr m (0x2f :: V.text e.name) = .fails .enoent := by
  constructor
  · have hp : V.Path [0x2f] (some 2) := ⟨[], rfl, by decide, by simp, .here 2⟩
    obtain ⟨hr, h, h1, h2⟩ := fileAt_path hL hS hT hp
    refine ⟨h, ?_, ?_⟩
    · unfold Mount.openDirectory Mount.openFile
      rw [if_neg (by decide), h1]
    · obtain ⟨st, st', l, h', e1, _, _, e4, _⟩ := readDirectory_good hL hS hT hr h2
      refine ⟨_, by rw [e1], ?_⟩
      have : ∀ {es : List DirEntry} {l : List (Bytes × Stat)}, V.Listed Terms.shown es l → e ∈ es → V.text e.name ∈ l.map (·.1) := by
        intro es l h
        induction h with
        | nil => intro h; cases h
        | cons _ _ ih =>
          intro h
          rcases List.mem_cons.1 h with rfl | h
          · simp
          · exact List.mem_cons_of_mem _ (ih h)
      exact List.mem_cons_of_mem _ (List.mem_cons_of_mem _ (this e4 he))
  · have hc : ∀ {f n}, Component f n → n ≠ [] ∧ ∀ c ∈ n, Scalar c ∧ c ≠ 0 := fun h => ⟨h.nonempty, fun c hc => ⟨(h.characters c hc).1, (h.characters c hc).2.1⟩⟩
    have hlen : (slashed ([a, b].map shownName)).length < 2 ^ 63 - 1 := by
      obtain ⟨_, _, h, _⟩ := hno
      exact h
    have := c56_slash (m := m) hL (hc ha) (hc hb) hl hlen
    rw [hT, hname, show (0x2f : UInt8) :: shownName (a ++ 0x2f :: b) = slashed ([a ++ 0x2f :: b].map shownName) by simp [slashed], this]
    have hf : fileAt m (slashed ([a, b].map shownName)) = ok none := fileAt_path hL hS hT hno
    unfold Mount.getattr
    rw [hf]

/-! ## directories -/

/-- In the root directory `..` has no attributes. -/
theorem c56_root_parent (hL : Libraries m) (hS : Mounts m s xid rs image cipher V) (hT : V.text = shownName) : ∃ h, Mount.openDirectory m [0x2f] = .value h ∧
    ∃ st l, (Mount.readDirectory m h).1 = .value (st :: ([0x2e, 0x2e], { size := 0, mode := 0, links := 1, access := (0, 0), change := (0, 0), modification := (0, 0) }) :: l) := by
  have hp : V.Path [0x2f] (some 2) := ⟨[], rfl, by decide, by simp, .here 2⟩
  obtain ⟨hr, h, h1, h2⟩ := fileAt_path hL hS hT hp
  refine ⟨h, ?_, ?_⟩
  · unfold Mount.openDirectory Mount.openFile
    rw [if_neg (by decide), h1]
  · obtain ⟨st, h', e1, _, e2, _⟩ := stat_good hS hr h2
    obtain ⟨st1, st2, l, h'', g1, _⟩ := readDirectory_good hL hS hT hr h2
    rw [g1]
    unfold Mount.readDirectory at g1
    rw [e1] at g1
    have hpar : Mount.parentStat m h' = ok { size := 0, mode := 0, links := 1, access := (0, 0), change := (0, 0), modification := (0, 0) } := by
      unfold Mount.parentStat parentNode
      rw [if_neg (by rw [e2.mirrors.identifier, hS.has.identifier 2 hr]; omega)]
      rfl
    simp only at g1
    rw [hpar] at g1
    simp only at g1
    cases hfa : Mount.fillAll m h'.node with
    | mk a n =>
      rw [hfa] at g1
      cases a with
      | err => simp only [Prod.mk.injEq, reduceCtorEq, false_and] at g1
      | ub => simp only [Prod.mk.injEq, reduceCtorEq, false_and] at g1
      | ok fs =>
        simp only [Prod.mk.injEq, Reply.value.injEq, List.cons.injEq, true_and] at g1
        obtain ⟨⟨_, g2, _⟩, _⟩ := g1
        exact ⟨_, l, by rw [← g2]⟩

/-- The entries of a directory cannot be listed if the inode of its parent directory has no name. -/
theorem c56_unnamed_parent {h : Handle} {p : FileNode} (hp : parentNode (lookups m.files) h.node = ok (.node p)) (hr : p.record = none) (hn : p.inode.name = none) :
    ∀ l, (Mount.readDirectory m h).1 ≠ .value l := by
  have hst : ∀ {r h'}, statOf m h = (r, h') → h'.node = h.node := by
    intro r h' e
    unfold statOf at e
    split at e <;> (cases e; rfl)
  intro l e
  unfold Mount.readDirectory at e
  cases hs : statOf m h with
  | mk r h' =>
    have hnode := hst hs
    rw [hs] at e
    cases r with
    | err => cases e
    | ub => cases e
    | ok dot =>
      have hpar : Mount.parentStat m h' = err := by
        unfold Mount.parentStat
        rw [hnode, hp]
        simp only
        unfold nameOf FileRead.nodeName
        rw [hr]
        simp only [hn]
        rfl
      simp only at e
      rw [hpar] at e
      cases e

theorem fillSubs_prefix {inode : Records.Inode} {bad : Nat} (hbad : ∀ n, KeptEntries (lookups m.files) inode n → ∀ x n', call (lookups m.files) (.sub bad) n ≠ (ok (.node x), n')) :
    ∀ (left index : Nat) (n : FileNode), KeptEntries (lookups m.files) inode n → index ≤ bad → bad < index + left → ∀ l n', Mount.fillSubs m left index n ≠ (ok l, n')
  | 0, _, _, _, _, _, _, _ => by omega
  | left + 1, index, n, hn, h1, h2, l, n' => by
    intro e
    unfold Mount.fillSubs at e
    cases hc : call (lookups m.files) (.sub index) n with
    | mk a n1 =>
      have hk : KeptEntries (lookups m.files) inode n1 := by
        have := (call_kept ⟨fun _ => .inl rfl, fun _ => .inl rfl⟩ hn hn (.sub index)).1
        rw [hc] at this
        exact this
      rw [hc] at e
      cases a with
      | err => cases e
      | ub => cases e
      | ok x =>
        cases x with
        | number _ => cases e
        | none => cases e
        | node x =>
          by_cases hb : index = bad
          · exact hbad n hn x n1 (hb ▸ hc)
          · simp only at e
            cases hf : Mount.subFilled m x with
            | err => rw [hf] at e; cases e
            | ub => rw [hf] at e; cases e
            | ok f =>
              rw [hf] at e
              simp only at e
              cases hs : Mount.fillSubs m left (index + 1) n1 with
              | mk b n2 =>
                rw [hs] at e
                cases b with
                | err => cases e
                | ub => cases e
                | ok l' => exact fillSubs_prefix hbad left (index + 1) n1 hk (by omega) (by omega) l' n2 hs

/-- One entry without inode makes the whole directory unreadable. -/
theorem c56_dangling (hF : OfTree m.files s xid) (h : FsHolds s xid rs) {fmt : NameFormat} {i : Nat} {entries : List DirEntry} (hdir : Directory rs fmt i entries) {e : DirEntry} (he : e ∈ entries)
    (hi : e.identifier < 2 ^ 60) (hno : ∀ r ∈ rs, ¬ IsOf e.identifier 3 r) (ht : ∀ r ∈ rs, 3 ≤ fsType r.1) {n : FileNode} (hn : n.inode.identifier = i) (hc : n.children = none) (name : Bytes) :
    ∀ l, (Mount.readDirectory m (.new name n)).1 ≠ .value l := by
  have hlist := directory_listed hF h hdir
  rw [← hn] at hlist
  obtain ⟨k, hk, hke⟩ := List.mem_iff_getElem.1 he
  have hinode : (lookups m.files).inode e.identifier = ok none := by
    show inodeByIdentifier m.files.tree m.files.xid e.identifier = _
    rw [hF.1, hF.2]
    exact (c19_lookup_partial s xid rs h e.identifier hi (List.pairwise_iff_forall_sublist.2 fun {a _} hs hab => hno a (hs.subset (by simp)) hab.1) ht).2 hno
  have hbad : ∀ n', KeptEntries (lookups m.files) n.inode n' → ∀ x n'', call (lookups m.files) (.sub k) n' ≠ (ok (.node x), n'') := by
    intro n' hn' x n'' hcall
    obtain ⟨n1, d1, _⟩ := determine_listed hn' hlist
    unfold FileRead.call at hcall
    simp only [d1] at hcall
    have hel : elementAt (entries.map (NameLookup.recordOf fmt)) (k : Int) = ok (NameLookup.recordOf fmt e) := by
      unfold elementAt
      rw [if_neg (by omega), Int.toNat_natCast, List.getElem?_map, List.getElem?_eq_getElem hk, hke]
      rfl
    have hsub : subNode (lookups m.files) (NameLookup.recordOf fmt e) = err := by
      unfold subNode
      rw [show (NameLookup.recordOf fmt e).identifier = e.identifier from rfl, hinode]
    rw [hel, ok_bind, hsub, err_bind] at hcall
    cases hcall
  intro l hv
  unfold Mount.readDirectory at hv
  cases hs : statOf m (.new name n) with
  | mk r h' =>
    have hnode : h'.node = n := by
      unfold statOf at hs
      split at hs <;> (cases hs; rfl)
    rw [hs] at hv
    cases r with
    | err => cases hv
    | ub => cases hv
    | ok dot =>
      simp only at hv
      cases hp : Mount.parentStat m h' with
      | err => rw [hp] at hv; cases hv
      | ub => rw [hp] at hv; cases hv
      | ok st =>
        rw [hp] at hv
        simp only at hv
        rw [hnode] at hv
        have hkept : KeptEntries (lookups m.files) n.inode n := ⟨rfl, .inl hc⟩
        obtain ⟨n1, d1, d2⟩ := determine_listed hkept hlist
        have hall : Mount.fillAll m n = Mount.fillSubs m entries.length 0 n1 := by
          unfold Mount.fillAll FileRead.call
          simp only [d1, List.length_map]
        rw [hall] at hv
        cases hfs : Mount.fillSubs m entries.length 0 n1 with
        | mk a n2 =>
          rw [hfs] at hv
          cases a with
          | err => cases hv
          | ub => cases hv
          | ok fs => exact fillSubs_prefix hbad entries.length 0 n1 d2 (by omega) (by omega) fs n2 hfs

/-! ## symbolic links and extended attributes -/

/-- A buffer that is too small for a list of extended attributes gives an input/output error, where a program expects ERANGE. -/
theorem c56_short_list (hL : Libraries m) (hS : Mounts m s xid rs image cipher V) (hT : V.text = shownName) {path : Bytes} {i : Nat} (hp : V.Path path (some i)) {size : Nat} (h0 : 0 < size)
    (hsz : size < (V.file i).names.length) (hm : size < 2 ^ 31) : Mount.listxattr m path size = .fails .eio := by
  have hst := listxattr_good hL hS (fileAt_path hL hS hT hp) hp size []
  have hf := fileAt_path hL hS hT hp
  generalize hr : Mount.mapReply Answer.value (Mount.listxattr m path size) = r at hst
  have hno : ∀ {j}, V.Path path j → ∃ n, j = some n ∧ (V.file n).names = (V.file i).names := by
    intro j hj
    obtain ⟨hr1, h, h1, h2⟩ := hf
    cases j with
    | none =>
      have : fileAt m path = ok none := fileAt_path hL hS hT hj
      rw [h1] at this
      cases this
    | some n =>
      obtain ⟨hr3, h', h3, h4⟩ := fileAt_path hL hS hT hj
      rw [h1] at h3
      have : h = h' := Option.some.inj (Res.ok.inj h3)
      subst this
      have e1 := h2.mirrors.identifier
      rw [h4.mirrors.identifier, hS.has.identifier n hr3, hS.has.identifier i hr1] at e1
      exact ⟨n, rfl, by rw [e1]⟩
  have hres : r = .fails .eio := by
    cases hst with
    | listxattr hp' h0' hsz' hm' =>
      obtain ⟨n, hn, he⟩ := hno hp'
      cases hn
      rw [he] at hsz'
      omega
    | listxattrSize hp' => omega
    | listxattrShort hp' h0' hsz' hm' hr' => exact hr'
    | listxattrMissing hp' hsz' =>
      obtain ⟨n, hn, _⟩ := hno hp'
      cases hn
    | listxattrLarge hsz' => omega
  rw [hres] at hr
  cases hl : Mount.listxattr m path size with
  | value v => rw [hl] at hr; cases hr
  | ub => rw [hl] at hr; cases hr
  | fails e =>
    rw [hl] at hr
    cases hr
    rfl

/-- A buffer that is too small for the target of a symbolic link gives an input/output error, where POSIX has the target truncated. -/
theorem c56_short_link (hL : Libraries m) (hS : Mounts m s xid rs image cipher V) (hT : V.text = shownName) {path : Bytes} {i : Nat} (hp : V.Path path (some i)) {target : List Nat}
    (ht : LinksTo (V.file i) target) {size : Nat} (hsz : size ≤ (Utf8.encode target).length) : Mount.readlink m path size = .fails .eio := by
  obtain ⟨hr, h, h1, h2⟩ := fileAt_path hL hS hT hp
  have hv := (hS.has.file i hr).valid
  have hh := hS.healthy hr h2.mirrors
  have hsp := (FileEntry.symlinkTarget_spec hv (h2.entry.inv hv) hh.faithful).2.2.2 hh
  have hsp : ∀ t, FileEntry.target? (V.file i).stored = some t → (FileEntry.symlinkTarget (h.env m) h.entry).1 = ok t := hsp
  unfold Mount.readlink
  rw [h1]
  simp only
  rw [hsp (some (storedName target)) (by
    unfold FileEntry.target?
    rw [ht.value]
    have h3 := ht.size
    have h4 : 0 < (storedName target).length := by simp [storedName]
    simp only
    rw [if_neg (by omega)]), ok_bind]
  simp only
  rw [hL.names _ ht.characters, ok_bind, require_false (by omega), err_bind]
  rfl

/-! ## memory -/

/-- Opening a directory and closing it. -/
def visits (path : Bytes) : Nat → Nat → List Request
  | 0, _ => []
  | k + 1, n => .opendir path :: .releasedir n :: visits path k (n + 1)

/-- Directories that were opened and closed are not freed: the memory they take grows without bound. -/
theorem c56_leak (hL : Libraries m) (hS : Mounts m s xid rs image cipher V) (hT : V.text = shownName) {path : Bytes} {i : Nat} (hp : V.Path path (some i)) (k : Nat) :
    (Mount.serveAll m (visits path k 0) {}).2.lost = k := by
  obtain ⟨_, h, h1, _⟩ := fileAt_path hL hS hT hp
  have hopen : Mount.openDirectory m path = .value h := by
    unfold Mount.openDirectory Mount.openFile
    rw [if_neg (by decide), h1]
  have : ∀ (k : Nat) (ss : Session), (Mount.serveAll m (visits path k ss.handles.length) ss).2.lost = ss.lost + k := by
    intro k
    induction k with
    | zero => intro ss; rfl
    | succ k ih =>
      intro ss
      unfold visits
      have e1 : Mount.serve m ss (.opendir path) = (.value (.handle ss.handles.length), { ss with handles := ss.handles ++ [some h] }) := by
        unfold Mount.serve
        simp only [hopen]
        rfl
      have hget : Session.get { ss with handles := ss.handles ++ [some h] } ss.handles.length = some h := by
        unfold Session.get
        simp
      have e2 : Mount.serve m { ss with handles := ss.handles ++ [some h] } (.releasedir ss.handles.length) =
          (.value .done, { handles := ss.handles ++ [none], lost := ss.lost + 1 }) := by
        unfold Mount.serve
        simp only [hget]
        unfold Session.set
        simp
      unfold Mount.serveAll
      rw [e1]
      simp only
      unfold Mount.serveAll
      rw [e2]
      simp only
      have := ih { handles := ss.handles ++ [none], lost := ss.lost + 1 }
      simp only [List.length_append, List.length_singleton] at this
      rw [this]
      omega
  have := this k {}
  simpa using this

/-- An extended attribute that does not fit in the buffer is not freed: the memory grows without bound. -/
theorem c56_getxattr_leak (hL : Libraries m) (hS : Mounts m s xid rs image cipher V) (hT : V.text = shownName) {path : Bytes} {i : Nat} (hp : V.Path path (some i)) {name value : Bytes} (hn : 0 ∉ name)
    (hv : (V.file i).stored.attribute? name = some value) {size : Nat} (h0 : 0 < size) (hsz : size < value.length) (hm : value.length < 2 ^ 31) (k : Nat) :
    (Mount.serveAll m (List.replicate k (.getxattr path name size)) {}).2.lost = k := by
  obtain ⟨hr, h, h1, h2⟩ := fileAt_path hL hS hT hp
  have hva := (hS.has.file i hr).valid
  have hh := hS.healthy hr h2.mirrors
  have hsp : (FileEntry.attributeByName (h.env m) name h.entry).1 = ok ((FileEntry.named (V.file i).stored name).map FileEntry.attr) :=
    (FileEntry.attributeByName_spec hva (h2.entry.inv hva) hh.faithful name).2.2.2 hh
  have hone : (Mount.getxattr m path name size).2 = 1 := by
    unfold Mount.getxattr
    rw [if_neg (by unfold Mount.intMax; omega), h1, PathString.cString_eq fun b hb h0 => hn (h0 ▸ hb)]
    simp only
    rw [hsp]
    rw [FileEntry.attribute?_eq] at hv
    cases hna : FileEntry.named (V.file i).stored name with
    | none => rw [hna] at hv; cases hv
    | some x =>
      rw [hna] at hv
      have hv : x.value = value := Option.some.inj hv
      simp only [Option.map_some]
      unfold Mount.attributeValue
      rw [show (FileEntry.attr x).size = x.value.length from rfl, hv, if_neg (by unfold Mount.intMax; omega), if_neg (by omega), if_pos hsz]
  have : ∀ (k : Nat) (ss : Session), (Mount.serveAll m (List.replicate k (.getxattr path name size)) ss).2.lost = ss.lost + k := by
    intro k
    induction k with
    | zero => intro ss; rfl
    | succ k ih =>
      intro ss
      rw [List.replicate_succ]
      unfold Mount.serveAll
      rw [ih]
      show ss.lost + (Mount.getxattr m path name size).2 + k = _
      rw [hone]
      omega
  have := this k {}
  simpa using this

end Verif.Props
