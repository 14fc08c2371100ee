import Verif.Model.Dokan
import Verif.Lemmas.PathWindows
import Verif.Props.C66
/-!
# C73 A volume mounted on Windows

Programs that use a volume mounted with fsapfsmount on Windows see the files of the volume, whatever they ask and in whatever order: attributes, contents and directories.
-/
namespace Verif.Props
open Verif Res Spec BTree FsTree FileRead
open Verif.PathString (ssizeMax)
open Verif.PathWindows (Wide separated)
open Verif.Mount (Handle)
open Verif.Dokan (Windows)
open Verif.Spec.Dokan (Reply Info Found Request Answer)
open Verif.Spec.Windows (InfoOf InfoShown TimeShown FileTime)

/-- what is expected of libuna and of decompression -/
structure WideLibraries (w : Windows) : Prop where
  base : Libraries w.base
  wide : PathWindows.Lawful w.wide
  nul : ∀ u, w.wide.decoder.isNul u = decide (u = 0)
  names : ∀ name, PathString.Name name → w.names (storedName name) = ok (Utf16.encode name)

variable {w : Windows} {s : Storage} {xid : Nat} {rs : List Record} {image : Nat → Option Bytes} {cipher : Option (Cipher × Cipher)} {V : View}

/-- how names are shown -/
def wideName (name : List Nat) : Wide := name.flatMap PathWindows.escaped

theorem wideNames : Spec.Windows.ShownNames wideName where
  nonempty name h0 e := by
    cases name with
    | nil => exact h0 rfl
    | cons c cs => exact PathWindows.escaped_ne_nil c _ e
  allowed name hc u hu := by
    obtain ⟨c, h1, h2⟩ := List.mem_flatMap.1 hu
    exact PathWindows.escaped_allowed c (hc c h1).1 h2
  means name hc := by
    have := PathWindows.unescape_flatMap name hc []
    rw [List.append_nil] at this
    unfold wideName
    rw [this]
    simp [Spec.Windows.unescape]

/-! ## paths -/

theorem wide_decodes {k : PathWindows.Codec} (hk : PathWindows.Lawful k) (cs : List Nat) (hc : ∀ c ∈ cs, Scalar c) (r : Wide) : Name.Decodes k.decoder (Utf16.encode cs ++ r) cs r := by
  induction cs with
  | nil => exact .done r
  | cons c cs ih =>
    have hs : Utf16.encode (c :: cs) ++ r = Utf16.encodeChar c ++ (Utf16.encode cs ++ r) := by simp [Utf16.encode]
    rw [hs]
    exact .step (hk.reads c (hc c (List.mem_cons_self ..)) _) (ih (fun c h => hc c (List.mem_cons_of_mem _ h)))

theorem wide_separator {k : PathWindows.Codec} (hk : PathWindows.Lawful k) (r : Wide) : k.decoder.next (0x2f :: r) = some (0x2f, r) := by
  have := hk.reads 0x2f (by decide) r
  simpa [Utf16.encodeChar] using this

theorem wide_nameOf (hL : WideLibraries w) {name : List Nat} (h : ∀ c ∈ name, Scalar c ∧ c ≠ 0) : Name.NameOf w.wide.decoder (Utf16.encode name) name := by
  unfold Name.NameOf Name.stripNul
  have hd := wide_decodes hL.wide name (fun c hc => (h c hc).1) []
  rw [List.append_nil] at hd
  cases hl : (Utf16.encode name).getLast? with
  | none => exact hd
  | some b =>
    have hb : b ≠ 0 := PathWindows.encode_nonzero (fun c hc => h c hc) b (List.mem_of_getLast? hl)
    simp only
    rw [hL.nul, decide_eq_false hb]
    exact hd

theorem wide_query (hL : WideLibraries w) (hS : Mounts w.base s xid rs image cipher V) {i : Nat} (hr : Reach V.dirs i) {name : List Nat} (hn : Component V.format name) :
    ∃ strHash, NameLookup.Query w.wide.decoder V.format (V.dirs i) (Utf16.encode name) name strHash := by
  have hc : ∀ c ∈ name, Scalar c ∧ c ≠ 0 := fun c h => ⟨(hn.characters c h).1, (hn.characters c h).2.1⟩
  have hd := wide_decodes hL.wide name (fun c h => (hc c h).1) []
  rw [List.append_nil] at hd
  exact c21_query _ _ _ _ name (wide_nameOf hL hc) ⟨fun c h => (hc c h).2, [], hd, .inl rfl⟩ hn.findable.tables hn.findable.order hn.findable.folded
    (fun hh => ⟨hn.findable.hash hh, fun e he => (hS.has.findable i hr e he).hash hh⟩) (fun e he _ => (hS.has.findable i hr e he).tables)

theorem wide_segment (hL : WideLibraries w) {f : NameFormat} {name : List Nat} (hn : Component f name) : NameLookup.IsSegment w.wide.decoder (Utf16.encode name) := by
  refine ⟨fun he => ?_, name, fun c hc => ⟨(hn.characters c hc).2.2, (hn.characters c hc).2.1⟩, fun r => wide_decodes hL.wide name (fun c hc => (hn.characters c hc).1) r⟩
  cases name with
  | nil => exact hn.nonempty rfl
  | cons c cs =>
    have := PathWindows.encode_length (c :: cs)
    rw [he] at this
    simp at this

/-- where names lead -/
theorem wide_leads (hL : WideLibraries w) (hS : Mounts w.base s xid rs image cipher V) {i : Nat} {names : List (List Nat)} {t : Option Nat} (hl : V.Leads i names t) (hr : Reach V.dirs i)
    (hn : ∀ n ∈ names, Component V.format n) (record : Option Records.DirectoryRecord) :
    match t with
    | some j => Reach V.dirs j ∧ ∃ es, Hierarchy w.wide.decoder rs V.format i (names.map Utf16.encode) es ∧ (lastEntry V.format i record es).1 = j
    | none => ∃ pre q more es, names = pre ++ q :: more ∧ Hierarchy w.wide.decoder rs V.format i (pre.map Utf16.encode) es ∧ Reach V.dirs (lastEntry V.format i record es).1 ∧
        ∀ e ∈ V.dirs (lastEntry V.format i record es).1, ¬ SameName V.format.caseInsensitive q e.name := by
  induction hl generalizing record with
  | here i => exact ⟨hr, [], .here i, rfl⟩
  | @step i e names t he rest ih =>
    have hr' : Reach V.dirs e.identifier := .step hr he
    have hi := ih hr' (fun n h => hn n (List.mem_cons_of_mem _ h)) (some (NameLookup.recordOf V.format e))
    obtain ⟨strHash, hq⟩ := wide_query hL hS hr (hn e.name (by simp))
    have hstep : ∀ {strs es}, Hierarchy w.wide.decoder rs V.format e.identifier strs es → Hierarchy w.wide.decoder rs V.format i (Utf16.encode e.name :: strs) (e :: es) :=
      fun h => .step (hS.fits hr) (hS.has.hierarchy.directory i hr) he hq (hS.has.unique i hr) h
    cases t with
    | some j =>
      obtain ⟨h1, es, h2, h3⟩ := hi
      exact ⟨h1, e :: es, hstep h2, h3⟩
    | none =>
      obtain ⟨pre, q, more, es, h1, h2, h3, h4⟩ := hi
      exact ⟨e.name :: pre, q, more, e :: es, by rw [h1]; rfl, hstep h2, h3, h4⟩
  | @missing i name names h => exact ⟨[], name, names, [], rfl, .here i, hr, h⟩

theorem lastSeparator_le (path : Wide) : ∀ n, Dokan.lastSeparator path n ≤ n
  | 0 => Nat.le_refl _
  | n + 1 => by
    unfold Dokan.lastSeparator
    split
    · exact Nat.le_refl _
    · have := lastSeparator_le path n
      omega

theorem lastSeparator_length {path : Wide} (h : 0 < path.length) : Dokan.lastSeparator path path.length + 1 ≤ path.length := by
  cases hl : path.length with
  | zero => omega
  | succ n =>
    unfold Dokan.lastSeparator
    rw [if_neg (by rw [List.getElem?_eq_none (by omega)]; simp)]
    have := lastSeparator_le path n
    omega

theorem wide_nameLength {path : Wide} (h : 0 < path.length) (hl : Dokan.pathLength path = path.length) (hm : path.length < ssizeMax) : Dokan.nameLength path ≤ ssizeMax - 1 := by
  have := lastSeparator_length h
  unfold Dokan.nameLength
  rw [hl]
  unfold ssizeMax at *
  omega

theorem wide_joined {names : List (List Nat)} (h0 : names ≠ []) : separated 0x2f (names.map Utf16.encode) = pathString 0x2f true false (names.map Utf16.encode) := by
  unfold separated pathString
  simp only [if_true, Bool.false_eq_true, if_false, List.append_nil]
  have : ∀ l : List Wide, l ≠ [] → l.flatMap (0x2f :: ·) = [0x2f] ++ joinNames 0x2f l := by
    intro l
    induction l with
    | nil => intro h; exact absurd rfl h
    | cons n l ih =>
      intro _
      cases l with
      | nil => simp [joinNames]
      | cons n' l =>
        rw [List.flatMap_cons, ih (by simp)]
        simp [joinNames]
  exact this _ (by simpa using h0)

theorem wide_nonzero {name : List Nat} (hc : ∀ c ∈ name, Scalar c ∧ c ≠ 0) : ∀ u ∈ wideName name, u ≠ 0 :=
  fun u hu e => wideNames.allowed name hc u hu (e ▸ by decide)

theorem wide_path {names : List (List Nat)} (h0 : names ≠ []) (hn : ∀ n ∈ names, Component V.format n) :
    0x5c ∉ (separated 0x5c (names.map wideName)).getLast? ∧ (∀ b ∈ separated 0x5c (names.map wideName), b ≠ 0) ∧ 2 ≤ (separated 0x5c (names.map wideName)).length := by
  have hc : ∀ n ∈ names, ∀ c ∈ n, Scalar c ∧ c ≠ 0 := fun n h c hc => ⟨((hn n h).characters c hc).1, ((hn n h).characters c hc).2.1⟩
  refine ⟨?_, ?_, ?_⟩
  · obtain ⟨a, n, rfl⟩ : ∃ a n, names = a ++ [n] := ⟨names.dropLast, names.getLast h0, (List.dropLast_concat_getLast h0).symm⟩
    have h1 := wideNames.nonempty n (hn n (by simp)).nonempty
    have h2 := wideNames.allowed n (hc n (by simp))
    unfold separated
    rw [List.map_append, List.flatMap_append]
    simp only [List.map_cons, List.map_nil, List.flatMap_cons, List.flatMap_nil, List.append_nil]
    rw [List.getLast?_append, List.getLast?_cons_of_ne_nil h1]
    cases hg : (wideName n).getLast? with
    | none => exact absurd (List.getLast?_eq_none_iff.1 hg) h1
    | some b =>
      intro h
      have h : b = 0x5c := Option.some.inj h
      exact h2 0x5c (h ▸ List.mem_of_getLast? hg) (by decide)
  · intro b hb
    obtain ⟨x, h1, h2⟩ := List.mem_flatMap.1 hb
    obtain ⟨n, h3, rfl⟩ := List.mem_map.1 h1
    rcases List.mem_cons.1 h2 with rfl | h2
    · decide
    · exact wide_nonzero (hc n h3) b h2
  · cases names with
    | nil => exact absurd rfl h0
    | cons n l =>
      have h1 := List.length_pos_iff.2 (wideNames.nonempty n (hn n (by simp)).nonempty)
      simp only [separated, List.map_cons, List.flatMap_cons, List.length_append, List.length_cons]
      omega

theorem wide_fileAt {path : Wide} (hcs : PathWindows.cString path = path) (h0 : 0 < path.length) (hpl : Dokan.pathLength path = path.length) (hlen : path.length < ssizeMax) :
    Dokan.fileAt w path = (do
      let n ← Dokan.nodeAt w path
      match n with
      | none => return none
      | some n => return some (.new [] n)) := by
  have hnl := wide_nameLength h0 hpl hlen
  unfold Dokan.fileAt
  simp only
  rw [hcs, require_true (by omega), ok_bind, hpl, List.take_length]
  cases Dokan.nodeAt w path with
  | err => rw [err_bind, err_bind]
  | ub => rw [ub_bind, ub_bind]
  | ok n =>
    simp only [ok_bind]
    cases n with
    | none => rfl
    | some n =>
      simp only
      rw [require_true hnl]
      rfl

/-- an open file, and what its inode shows -/
structure GoodFile (w : Windows) (v : VolumeFile) (h : Handle) : Prop where
  good : Good w.base v h
  shows : InodeShows h.node.inode v

theorem goodFile_new {v : VolumeFile} {n : FileNode} (hn : InodeShows n.inode v) (hc : n.children = none) : GoodFile w v (.new [] n) := ⟨good_new _ hn.mirrors hc, hn⟩

/-- a path leads to its file, or to none -/
def WideFinds (w : Windows) (V : View) (path : Wide) : Option Nat → Prop
  | some i => Reach V.dirs i ∧ ∃ h, Dokan.fileAt w path = ok (some h) ∧ GoodFile w (V.file i) h
  | none => Dokan.fileAt w path = ok none

theorem wide_found (hL : WideLibraries w) (hS : Mounts w.base s xid rs image cipher V) {path : Wide} {t : Option Nat} (hp : Spec.Windows.Path V wideName path t) : WideFinds w V path t := by
  obtain ⟨names, rfl, hlen, hn, hl⟩ := hp
  obtain ⟨_, _, d, hfr, _⟩ := hS.holds.tree
  have hroot := fsRootNode_ok hfr
  by_cases h0 : names = []
  · subst h0
    cases hl
    refine ⟨.root, ?_⟩
    obtain ⟨r, h1, h2, n, h3, h4⟩ := hS.shown .root
    have hcopy := PathWindows.copyTo_names hL.wide [[]] (by simp) (fun cs h => by simp at h; subst h; intro c hc; cases hc) (by decide)
    have hcopy : PathWindows.copyTo w.wide [0x5c] = ok [0x2f] := hcopy
    have hnode : Dokan.nodeAt w [0x5c] = ok (some { inode := n, record := none }) := by
      unfold Dokan.nodeAt
      rw [hcopy, ok_bind, show PathWindows.cString [0x2f] = [0x2f] by decide]
      unfold byPath NameLookup.lookupPath
      rw [require_true (by simp), ok_bind, hS.serves.tree, hroot, ok_bind]
      simp only [List.length_singleton, or_true, if_true, pure_eq, ok_bind]
      have hi := (c19_lookup_partial s xid rs hS.holds 2 (by decide) (hS.one .root) hS.has.types).1 r h1 h2
      unfold inodeByIdentifier at hi
      rw [hS.serves.xid]
      cases he : fsEntry (volumeOf s) xid 2 3 with
      | err => rw [he, h3] at hi; cases hi
      | ub => rw [he, h3] at hi; cases hi
      | ok e =>
        rw [he, ok_bind] at hi
        rw [ok_bind]
        cases e with
        | none => rw [h3] at hi; cases hi
        | some e =>
          simp only at hi ⊢
          rw [h3] at hi
          cases hre : Records.readInode e with
          | err => rw [hre] at hi; cases hi
          | ub => rw [hre] at hi; cases hi
          | ok x => rw [hre] at hi; cases hi; rfl
    refine ⟨.new [] { inode := n, record := none }, ?_, goodFile_new h4 rfl⟩
    have e1 : Spec.Windows.pathOf wideName [] = [0x5c] := rfl
    rw [e1, wide_fileAt (by decide) (by decide) (by decide) (by decide), hnode]
    rfl
  · have hpath : Spec.Windows.pathOf wideName names = separated 0x5c (names.map wideName) := by
      unfold Spec.Windows.pathOf separated
      rw [if_neg h0, List.flatMap_map]
    rw [hpath] at hlen ⊢
    obtain ⟨hlast, hzero, h2⟩ := wide_path h0 hn
    have hcs : PathWindows.cString (separated 0x5c (names.map wideName)) = separated 0x5c (names.map wideName) := PathWindows.cString_eq hzero
    have hpl : Dokan.pathLength (separated 0x5c (names.map wideName)) = (separated 0x5c (names.map wideName)).length := by
      unfold Dokan.pathLength
      rw [if_neg]
      rintro ⟨_, h⟩
      rw [← List.getLast?_eq_getElem?] at h
      exact hlast h
    have hcopy := PathWindows.copyTo_names hL.wide names h0 (fun n h c hc => ⟨((hn n h).characters c hc).1, ((hn n h).characters c hc).2.1⟩) (by show (separated 0x5c (names.map wideName)).length < _; unfold ssizeMax; omega)
    have hcopy : PathWindows.copyTo w.wide (separated 0x5c (names.map wideName)) = ok (separated 0x2f (names.map Utf16.encode)) := hcopy
    have hcs' : PathWindows.cString (separated 0x2f (names.map Utf16.encode)) = separated 0x2f (names.map Utf16.encode) := by
      refine PathWindows.cString_eq fun b hb => ?_
      obtain ⟨x, h1, h2⟩ := List.mem_flatMap.1 hb
      obtain ⟨n, h3, rfl⟩ := List.mem_map.1 h1
      rcases List.mem_cons.1 h2 with rfl | h2
      · decide
      · exact PathWindows.encode_nonzero (fun c hc => ⟨((hn n h3).characters c hc).1, ((hn n h3).characters c hc).2.1⟩) b h2
    have hle : (separated 0x2f (names.map Utf16.encode)).length ≤ (separated 0x5c (names.map wideName)).length := PathWindows.separated_le names
    have hlen2 : 2 ≤ (separated 0x2f (names.map Utf16.encode)).length := by
      cases names with
      | nil => exact absurd rfl h0
      | cons n l =>
        have h1 := List.length_pos_iff.2 (wide_segment hL (hn n (by simp))).nonempty
        simp only [separated, List.map_cons, List.flatMap_cons, List.length_append, List.length_cons]
        omega
    have hseg : ∀ n ∈ names.map Utf16.encode, NameLookup.IsSegment w.wide.decoder n := by
      intro n hm
      obtain ⟨x, h1, rfl⟩ := List.mem_map.1 hm
      exact wide_segment hL (hn x h1)
    have hfile := wide_fileAt (w := w) hcs (by omega) hpl (by unfold ssizeMax; omega)
    have hnode : Dokan.nodeAt w (separated 0x5c (names.map wideName)) = (do
        let r ← byPath w.base.text.decoder w.wide.decoder 0x2f w.base.files (pathString 0x2f true false (names.map Utf16.encode))
        return r.map fun r => { inode := r.1, record := r.2 }) := by
      unfold Dokan.nodeAt
      rw [hcopy, ok_bind, hcs', wide_joined h0]
    rw [wide_joined h0] at hlen2 hle
    have hlen3 : (pathString 0x2f true false (names.map Utf16.encode)).length < 2 ^ 63 := by omega
    have hlead := wide_leads hL hS hl .root hn none
    cases t with
    | some j =>
      obtain ⟨hr, es, hh, hj⟩ := hlead
      refine ⟨hr, ?_⟩
      obtain ⟨r, h1, h2, n, h3, h4⟩ := hS.shown hr
      have hes : es ≠ [] := by
        rintro rfl
        cases names with
        | nil => exact h0 rfl
        | cons => cases hh
      obtain ⟨a, e, rfl⟩ : ∃ a e, es = a ++ [e] := ⟨es.dropLast, es.getLast hes, (List.dropLast_concat_getLast hes).symm⟩
      rw [lastEntry_append] at hj
      simp only at hj
      subst hj
      have hb : byPath w.base.text.decoder w.wide.decoder 0x2f w.base.files (pathString 0x2f true false (names.map Utf16.encode)) = ok (some (n, some (NameLookup.recordOf V.format e))) := by
        unfold byPath
        rw [hS.serves.tree, hS.serves.xid, hS.folding, c22_resolves (lawful_readsUtf8 hL.base) _ (wide_separator hL.wide) hS.holds hroot hh hseg true false hlen2 hlen3 (hS.fits hr)
          (hS.one hr) hS.has.types h1 h2, h3]
        rfl
      rw [hfile, hnode, hb]
      exact ⟨_, rfl, goodFile_new h4 rfl⟩
    | none =>
      obtain ⟨pre, q, more, es, rfl, hh, hr, hno⟩ := hlead
      obtain ⟨strHash, hq⟩ := wide_query hL hS hr (hn q (by simp))
      simp only [List.map_append, List.map_cons] at hseg hlen2 hlen3 hnode
      have hb : byPath w.base.text.decoder w.wide.decoder 0x2f w.base.files (pathString 0x2f true false (pre.map Utf16.encode ++ Utf16.encode q :: more.map Utf16.encode)) = ok none := by
        unfold byPath
        rw [hS.serves.tree, hS.serves.xid, hS.folding]
        exact c22_missing (lawful_readsUtf8 hL.base) _ (wide_separator hL.wide) hS.holds hroot hh (hS.fits hr) (hS.has.hierarchy.directory _ hr) hq hno hseg true false hlen2 hlen3
      simp only [List.map_append, List.map_cons]
      rw [hb] at hnode
      simp only [List.map_append, List.map_cons] at hfile
      show Dokan.fileAt w _ = ok none
      rw [hfile, hnode]
      rfl

/-! ## attributes -/

theorem filetime_shown {t : Nat} (ht : t < 2 ^ 64) (h : TimeShown t) : FileTime t (Dokan.filetime (Mount.signed64 t)) := by
  obtain ⟨h0, h1⟩ := h
  unfold FileTime Spec.Windows.nanoseconds Dokan.filetime Mount.signed64
  unfold Spec.Windows.nanoseconds at h1
  by_cases hp : t < 2 ^ 63
  · simp only [if_pos hp]
    have hd : (t : Int).tdiv 100 = (t : Int) / 100 := Int.tdiv_eq_ediv_of_nonneg (by omega)
    rw [if_neg (by omega), hd]
    omega
  · simp only [if_neg hp] at h1 ⊢
    have hm : ((t : Int) - 2 ^ 64) % 100 = 0 := by omega
    have hd : ((t : Int) - 2 ^ 64).tdiv 100 * 100 = (t : Int) - 2 ^ 64 := Int.tdiv_mul_cancel (Int.dvd_of_emod_eq_zero hm)
    rw [if_neg (by omega)]
    omega

/-- what is shown of a file -/
theorem info_exact (hS : Mounts w.base s xid rs image cipher V) {i : Nat} (hr : Reach V.dirs i) {h : Handle} (hg : GoodFile w (V.file i) h) :
    ∃ x, Dokan.infoOf w h = ok x ∧ (V.file i).stored.size? = some x.size ∧ (x.directory = true ↔ ((V.file i).type / 4 % 2 = 1 ∧ (V.file i).type ≠ 14)) ∧ x.creation = Dokan.filetime (Mount.signed64 (V.file i).fixed.modified) ∧
      x.access = Dokan.filetime (Mount.signed64 (V.file i).fixed.accessed) ∧ x.write = Dokan.filetime (Mount.signed64 (V.file i).fixed.created) := by
  have hh := hS.healthy hr hg.good.mirrors
  have hv := (hS.has.file i hr).valid
  obtain ⟨n, hn, hlt⟩ := hS.has.size i hr
  have hk : ∀ mt k, (V.file i).stored.kind = .compressed mt k → k ≠ 2 ^ 64 - 1 := by
    intro mt k hk
    unfold StoredFile.size? at hn
    rw [hk] at hn
    have := Option.some.inj hn
    omega
  have hz := c40_size_available _ hv h.entry hg.good.entry _ hh hk n hn
  have hz : (FileEntry.getSize (h.env w.base) h.entry).1 = ok n := hz
  unfold Dokan.infoOf
  cases he : FileEntry.getSize (h.env w.base) h.entry with
  | mk a e =>
    rw [he] at hz
    simp only at hz
    subst hz
    simp only
    refine ⟨_, rfl, hn, ?_, ?_, ?_, ?_⟩
    · have hm := hg.good.mirrors.fits.mode
      show decide (Mount.fileMode h.node.inode.mode / 0x4000 % 2 ≠ 0) = true ↔ _
      rw [decide_eq_true_iff, hg.good.mirrors.mode]
      unfold Mount.fileMode VolumeFile.type
      split <;> omega
    · show Dokan.filetime (Mount.signed64 h.node.inode.creation) = _
      rw [hg.shows.creation]
    · show Dokan.filetime (Mount.signed64 h.node.inode.access) = _
      rw [hg.good.mirrors.access]
    · show Dokan.filetime (Mount.signed64 h.node.inode.modification) = _
      rw [hg.good.mirrors.modification]

theorem info_good (hS : Mounts w.base s xid rs image cipher V) {i : Nat} (hr : Reach V.dirs i) {h : Handle} (hg : GoodFile w (V.file i) h) :
    ∃ x, Dokan.infoOf w h = ok x ∧ InfoShown (V.file i) x := by
  obtain ⟨x, h1, h2, h3, h4, h5, h6⟩ := info_exact hS hr hg
  have hf := hg.good.mirrors.fits
  refine ⟨x, h1, h2, fun ht => ?_, fun he ht => ?_, fun ht => ?_, fun he ht => ?_⟩
  · rw [h3]
    simp only [List.mem_cons, List.not_mem_nil, or_false] at ht
    omega
  · rw [h4, ← he]
    exact filetime_shown hf.created ht
  · rw [h5]
    exact filetime_shown hf.accessed ht
  · rw [h6, he]
    exact filetime_shown hf.modified ht

/-! ## reading -/

theorem wide_read (h : Handle) {size : Nat} (hs : size < 2 ^ 31) (offset : Int) :
    (Dokan.read w h size offset).2 = (Mount.read w.base h size offset).2 ∧
      (∀ b, (Mount.read w.base h size offset).1 = .value b → (Dokan.read w h size offset).1 = .value b) ∧
      ((Mount.read w.base h size offset).1 = .fails .eio → (Dokan.read w h size offset).1 = .fails .readFault) := by
  unfold Dokan.read Mount.read
  rw [if_neg (by omega), if_neg (by unfold Mount.intMax; omega)]
  cases Mount.readAt w.base h size offset with
  | mk a h' =>
    dsimp only
    cases a with
    | ok b => exact ⟨rfl, fun b' e => by cases e; rfl, nofun⟩
    | err => exact ⟨rfl, nofun, fun _ => rfl⟩
    | ub => exact ⟨rfl, nofun, nofun⟩

theorem wide_large (h : Handle) {size : Nat} (hs : 2 ^ 31 ≤ size) (offset : Int) : Dokan.read w h size offset = (.fails .badArguments, h) := by
  unfold Dokan.read
  rw [if_pos (by omega)]

/-! ## directories -/

theorem max_ge (w : Windows) : 260 ≤ Dokan.dokanMaxPath w := by
  unfold Dokan.dokanMaxPath Dokan.maxPath
  split <;> omega

theorem fill_good {name : Wide} {size : Nat} (hs : size ≤ 260) (x : Info) :
    ∃ short, Dokan.fill w name size (ok x) = ok { name, short, info := x } ∧ (short = [] ∨ short = name) := by
  have := max_ge w
  unfold Dokan.fill Dokan.copyWide
  rw [require_true (by omega), ok_bind, ok_bind, if_pos (by unfold Dokan.maxPath; omega), ok_bind]
  by_cases h : size ≤ 14
  · rw [if_pos h, if_pos h]
    exact ⟨_, rfl, .inr rfl⟩
  · rw [if_neg h]
    exact ⟨_, rfl, .inl rfl⟩

theorem fill_long (hw : w.longPaths = false) {name : Wide} {size : Nat} (hs : 260 < size) (x : Res Info) : Dokan.fill w name size x = err := by
  unfold Dokan.fill Dokan.dokanMaxPath
  rw [hw, require_false (by simp only [Bool.false_eq_true, if_false]; unfold Dokan.maxPath; omega)]
  rfl

theorem wide_shown (hL : WideLibraries w) {name : List Nat} (hc : ∀ c ∈ name, Scalar c ∧ c ≠ 0) (h0 : name ≠ []) (hl : (Utf8.encode name).length < 65535) :
    PathWindows.copyFrom w.wide (Utf16.encode name) = ok (wideName name, (Utf16.encode name).length * 10 + 1) := by
  have h1 : (Utf16.encode name).length ≤ 2 * name.length := by
    clear hc h0 hl
    induction name with
    | nil => simp [Utf16.encode]
    | cons c cs ih =>
      have := PathWindows.encodeChar_length c
      simp only [Utf16.encode, List.flatMap_cons, List.length_append, List.length_cons] at *
      omega
  have h2 := PathString.encode_length name
  exact PathWindows.copyFrom_escaped hL.wide name hc h0 (by unfold ssizeMax; omega)

theorem wide_sub (hL : WideLibraries w) (hS : Mounts w.base s xid rs image cipher V) {i : Nat} (hr : Reach V.dirs i) {e : DirEntry} (he : e ∈ V.dirs i) :
    ∃ n, subNode (lookups w.base.files) (NameLookup.recordOf V.format e) = ok n ∧
      ((Utf16.encode e.name).length ≤ 25 → ∃ f, Dokan.subFound w n = ok f ∧ Spec.Windows.Entry Spec.Windows.Terms.shown (V.file e.identifier) (wideName e.name) f) ∧
      (25 < (Utf16.encode e.name).length → w.longPaths = false → Dokan.subFound w n = err) ∧
      (25 < (Utf16.encode e.name).length → (Utf16.encode e.name).length ≤ 3276 → w.longPaths = true → Dokan.subFound w n = ub) := by
  have hr' : Reach V.dirs e.identifier := .step hr he
  have hv := (hS.has.hierarchy.directory i hr).valid e he
  obtain ⟨n, h1, h2⟩ := hS.identified hr'
  have hname : Dokan.nameOf w { inode := n, record := some (NameLookup.recordOf V.format e) } = ok (wideName e.name, (Utf16.encode e.name).length * 10 + 1) := by
    unfold Dokan.nameOf Dokan.nodeName
    simp only
    rw [show (NameLookup.recordOf V.format e).name = storedName e.name from rfl, hL.names _ hv.name, ok_bind,
      wide_shown hL hv.name (hS.has.hierarchy.named i hr e he) (by have := hv.size; omega)]
  have hg := goodFile_new (w := w) (n := { inode := n, record := some (NameLookup.recordOf V.format e) }) h2 rfl
  obtain ⟨x, g1, g2⟩ := info_good hS hr' hg
  refine ⟨{ inode := n, record := some (NameLookup.recordOf V.format e) }, ?_, fun hl => ?_, fun hl hw => ?_, fun hl hm hw => ?_⟩
  · unfold subNode
    have h1 : (lookups w.base.files).inode e.identifier = ok (some n) := h1
    rw [show (NameLookup.recordOf V.format e).identifier = e.identifier from rfl, h1]
  · unfold Dokan.subFound
    rw [hname, ok_bind, g1, PathWindows.cString_eq (wide_nonzero hv.name)]
    obtain ⟨short, f1, f2⟩ := fill_good (w := w) (name := wideName e.name) (size := (Utf16.encode e.name).length * 10 + 1) (by omega) x
    exact ⟨_, f1, rfl, f2, g2⟩
  · unfold Dokan.subFound
    rw [hname, ok_bind]
    exact fill_long hw (by show 260 < (Utf16.encode e.name).length * 10 + 1; omega) _
  · unfold Dokan.subFound
    rw [hname, ok_bind, g1]
    unfold Dokan.fill Dokan.dokanMaxPath Dokan.copyWide
    simp only
    rw [hw, if_pos rfl, require_true (by omega), ok_bind, ok_bind, if_neg (by unfold Dokan.maxPath; omega), ub_bind]

theorem wide_fillSubs (hL : WideLibraries w) (hS : Mounts w.base s xid rs image cipher V) (hw : w.longPaths = false) {i : Nat} (hr : Reach V.dirs i) {inode : Records.Inode}
    (hi : inode.identifier = i) : ∀ (left index : Nat) (n : FileNode), index + left = (V.dirs i).length → KeptEntries (lookups w.base.files) inode n →
      ((∀ e ∈ (V.dirs i).drop index, (Utf16.encode e.name).length ≤ 25) →
        ∃ l, Dokan.fillSubs w left index n = ok l ∧ Spec.Windows.Listed V wideName Spec.Windows.Terms.shown ((V.dirs i).drop index) l) ∧
      ((∃ e ∈ (V.dirs i).drop index, 25 < (Utf16.encode e.name).length) → Dokan.fillSubs w left index n = err) := by
  have hlist := directory_listed hS.ofTree hS.holds (hS.has.hierarchy.directory i hr)
  rw [← hi] at hlist
  intro left
  induction left with
  | zero =>
    intro index n hl hk
    rw [List.drop_eq_nil_of_le (by omega)]
    exact ⟨fun _ => ⟨[], rfl, .nil⟩, fun h => by simp at h⟩
  | succ left ih =>
    intro index n hl hk
    have hlt : index < (V.dirs i).length := by omega
    obtain ⟨n', h1, h2⟩ := determine_listed hk hlist
    obtain ⟨x, g1, g2, g3, _⟩ := wide_sub hL hS hr (List.getElem_mem hlt)
    have hel : elementAt ((V.dirs inode.identifier).map (NameLookup.recordOf V.format)) (index : Int) = ok (NameLookup.recordOf V.format (V.dirs i)[index]) := by
      unfold elementAt
      rw [if_neg (by omega), Int.toNat_natCast, hi, List.getElem?_map, List.getElem?_eq_getElem hlt]
      rfl
    have hcall : FileRead.call (lookups w.base.files) (.sub index) n = (ok (.node x), n') := by
      unfold FileRead.call
      simp only [h1]
      rw [hel, ok_bind, g1]
      rfl
    obtain ⟨e1, e2⟩ := ih (index + 1) n' (by omega) h2
    have hd := List.drop_eq_getElem_cons hlt
    unfold Dokan.fillSubs
    rw [hcall]
    simp only
    rw [hd]
    refine ⟨fun hall => ?_, fun hex => ?_⟩
    · obtain ⟨f, f1, f2⟩ := g2 (hall _ (List.mem_cons_self ..))
      obtain ⟨l, l1, l2⟩ := e1 (fun e he => hall e (List.mem_cons_of_mem _ he))
      rw [f1, ok_bind, l1, ok_bind]
      exact ⟨_, rfl, .cons f2 l2⟩
    · by_cases hlong : 25 < (Utf16.encode (V.dirs i)[index].name).length
      · rw [g3 hlong hw]
        rfl
      · obtain ⟨f, f1, _⟩ := g2 (by omega)
        obtain ⟨e, he, hel⟩ := hex
        rcases List.mem_cons.1 he with rfl | he
        · exact absurd hel hlong
        · rw [f1, ok_bind, e2 ⟨e, he, hel⟩]
          rfl

theorem wide_parentName (hL : WideLibraries w) (hS : Mounts w.base s xid rs image cipher V) {i : Nat} (hr : Reach V.dirs i) {n : Records.Inode} (hn : Mirrors n (V.file i)) :
    ∃ x, Dokan.nameOf w { inode := n, record := none } = ok x := by
  obtain ⟨h1, h2, h3⟩ := hS.has.named i hr
  unfold Dokan.nameOf Dokan.nodeName
  simp only
  rw [hn.name]
  simp only
  rw [hL.names _ h2, ok_bind, wide_shown hL h2 h1 h3]
  exact ⟨_, rfl⟩

/-- the zeros for `..` in the root directory -/
def zeroInfo : Info := { size := 0, directory := false, creation := 0, access := 0, write := 0 }

theorem wide_parent (hL : WideLibraries w) (hS : Mounts w.base s xid rs image cipher V) {i : Nat} (hr : Reach V.dirs i) {h : Handle} (hg : GoodFile w (V.file i) h) :
    ∃ f, Dokan.parentFound w h.node = ok f ∧ f.name = [0x2e, 0x2e] ∧ (i = 2 → f.info = zeroInfo) ∧
      (i ≠ 2 → Spec.Windows.Entry Spec.Windows.Terms.shown (V.file (V.file i).fixed.parent) [0x2e, 0x2e] f) := by
  have hid : h.node.inode.identifier = i := by rw [hg.good.mirrors.identifier, hS.has.identifier i hr]
  by_cases h2 : i = 2
  · unfold Dokan.parentFound parentNode
    rw [if_neg (by omega)]
    obtain ⟨short, f1, _⟩ := fill_good (w := w) (name := [0x2e, 0x2e]) (size := 3) (by decide) (Dokan.setInfo 0 0 0 0 0)
    exact ⟨_, f1, rfl, fun _ => rfl, fun h => absurd h2 h⟩
  · have hp := hS.has.parent i hr h2
    obtain ⟨n, g1, g2⟩ := hS.identified hp
    have g1 : (lookups w.base.files).inode (V.file i).fixed.parent = ok (some n) := g1
    obtain ⟨x, f1, f2⟩ := info_good hS hp (goodFile_new (w := w) (n := { inode := n, record := none }) g2 rfl)
    obtain ⟨nm, n1⟩ := wide_parentName hL hS hp g2.mirrors
    unfold Dokan.parentFound parentNode
    rw [if_pos (by rw [hid]; exact hS.has.reserved i hr h2), hg.good.mirrors.parent, g1]
    simp only
    rw [n1, ok_bind, f1]
    obtain ⟨short, e1, e2⟩ := fill_good (w := w) (name := [0x2e, 0x2e]) (size := 3) (by decide) x
    exact ⟨_, e1, rfl, fun h => absurd h h2, fun _ => ⟨rfl, e2, f2⟩⟩

theorem wide_find (hL : WideLibraries w) (hS : Mounts w.base s xid rs image cipher V) (hw : w.longPaths = false) {path : Wide} {i : Nat} (hf : WideFinds w V path (some i)) :
    ((∀ e ∈ V.dirs i, (Utf16.encode e.name).length ≤ 25) → ∃ f f' l, Dokan.findFiles w path = .value (f :: f' :: l) ∧
      Spec.Windows.Entry Spec.Windows.Terms.shown (V.file i) [0x2e] f ∧ f'.name = [0x2e, 0x2e] ∧ (i = 2 → f'.info = zeroInfo) ∧
      (i ≠ 2 → Spec.Windows.Entry Spec.Windows.Terms.shown (V.file (V.file i).fixed.parent) [0x2e, 0x2e] f') ∧ Spec.Windows.Listed V wideName Spec.Windows.Terms.shown (V.dirs i) l) ∧
    ((∃ e ∈ V.dirs i, 25 < (Utf16.encode e.name).length) → Dokan.findFiles w path = .fails .generic) := by
  obtain ⟨hr, h, h1, hg⟩ := hf
  have hid : h.node.inode.identifier = i := by rw [hg.good.mirrors.identifier, hS.has.identifier i hr]
  obtain ⟨x, x1, x2⟩ := info_good hS hr hg
  obtain ⟨short, s1, s2⟩ := fill_good (w := w) (name := [0x2e]) (size := 2) (by decide) x
  obtain ⟨f', p1, p2, p3, p4⟩ := wide_parent hL hS hr hg
  have hlist := directory_listed hS.ofTree hS.holds (hS.has.hierarchy.directory i hr)
  rw [← hid] at hlist
  obtain ⟨n1, d1, d2⟩ := determine_listed hg.good.kept hlist
  obtain ⟨q1, q2⟩ := wide_fillSubs hL hS hw hr hid (V.dirs i).length 0 n1 (by omega) d2
  have hall : Dokan.fillAll w h.node = Dokan.fillSubs w (V.dirs i).length 0 n1 := by
    unfold Dokan.fillAll FileRead.call
    simp only [d1, List.length_map, hid]
  rw [List.drop_zero] at q1 q2
  unfold Dokan.findFiles
  rw [h1]
  simp only
  rw [x1, s1, ok_bind, p1, ok_bind, hall]
  refine ⟨fun hs => ?_, fun hs => ?_⟩
  · obtain ⟨l, l1, l2⟩ := q1 hs
    rw [l1, ok_bind]
    exact ⟨_, f', l, rfl, ⟨rfl, s2, x2⟩, p2, p3, p4, l2⟩
  · rw [q2 hs, err_bind]
    rfl

/-! ## sessions -/

/-- requests about files that the volume has or that are missing -/
def WideAsked (V : View) (r : Request) : Prop := ∀ p, Spec.Windows.path? r = some p → ∃ t, Spec.Windows.Path V wideName p t

theorem wide_open (hL : WideLibraries w) (hS : Mounts w.base s xid rs image cipher V) {path : Wide} {t : Option Nat} (hp : Spec.Windows.Path V wideName path t) :
    (∃ i h, t = some i ∧ Dokan.openAt w path = .value h ∧ Reach V.dirs i ∧ Good w.base (V.file i) h) ∨ (t = none ∧ Dokan.openAt w path = .fails .notFound) := by
  have hfind := wide_found hL hS hp
  unfold Dokan.openAt
  cases t with
  | some i =>
    obtain ⟨hr, h, h1, h2⟩ := hfind
    rw [h1]
    exact .inl ⟨i, h, rfl, rfl, hr, h2.good⟩
  | none =>
    have hfind : Dokan.fileAt w path = ok none := hfind
    rw [hfind]
    exact .inr ⟨rfl, rfl⟩

/-- open files of a session -/
def opened (ss : Dokan.Session) : Mount.Session := { handles := ss }

theorem wide_serve (hL : WideLibraries w) (hS : Mounts w.base s xid rs image cipher V) (hw : w.longPaths = false) {hs : List (Option Nat)} {ss : Dokan.Session}
    (hm : Matches w.base V hs (opened ss)) {r : Request} (ha : WideAsked V r) :
    ∃ hs', Spec.Windows.Step V wideName w.old Spec.Windows.Terms.shown hs r (Dokan.serve w ss r).1 hs' ∧ Matches w.base V hs' (opened (Dokan.serve w ss r).2) := by
  have hlen : hs.length = ss.length := hm.length
  cases r with
  | create path access disposition =>
    obtain ⟨t, hp⟩ := ha path rfl
    unfold Dokan.serve
    simp only
    unfold Dokan.create
    by_cases hwr : access / 0x40000000 % 2 ≠ 0
    · rw [if_pos hwr]
      exact ⟨hs, .createWriting hwr, hm⟩
    · rw [if_neg hwr]
      have hop := wide_open hL hS hp
      by_cases hold : w.old = true
      · rw [if_pos hold]
        by_cases h3 : disposition = 3
        · subst h3
          simp only [show (3 : Nat) ≠ 1 by decide, show (3 : Nat) ≠ 2 by decide, show (3 : Nat) ≠ 4 by decide, show (3 : Nat) ≠ 5 by decide, ne_eq, not_true_eq_false, if_false]
          have ho : Spec.Windows.opens w.old 3 := by unfold Spec.Windows.opens; rw [if_pos hold]
          rcases hop with ⟨i, h, rfl, e1, e2, e3⟩ | ⟨rfl, e1⟩
          · rw [e1]
            refine ⟨hs ++ [some i], ?_, hm.add e2 e3⟩
            rw [show Dokan.add ss (.value h) = (.value (.handle hs.length), ss ++ [some h]) by rw [hlen]; rfl]
            exact .create hwr ho hp
          · rw [e1]
            exact ⟨hs, .createMissing hwr ho hp, hm⟩
        · have hno : ¬ Spec.Windows.opens w.old disposition := by unfold Spec.Windows.opens; rw [if_pos hold]; exact h3
          by_cases h4 : disposition = 4
          · subst h4
            simp only [show (4 : Nat) ≠ 1 by decide, show (4 : Nat) ≠ 2 by decide, if_false, if_true]
            refine ⟨hs, .createRefused hwr ?_ hp ?_, hm⟩
            · unfold Spec.Windows.opensOrCreates
              rw [if_pos hold]
            · intro h
              have h : w.old = false := h
              rw [hold] at h
              cases h
          · have hnc : ¬ Spec.Windows.opensOrCreates w.old disposition := by unfold Spec.Windows.opensOrCreates; rw [if_pos hold]; exact h4
            have : ∃ e, (if disposition = 1 then (.fails .fileExists : Reply Handle) else if disposition = 2 then .fails .alreadyExists else if disposition = 4 then .fails .notFound
                else if disposition = 5 then .fails .notFound else if disposition ≠ 3 then .fails .badArguments else Dokan.openAt w path) = .fails e := by
              repeat (first | exact ⟨_, rfl⟩ | split)
            obtain ⟨e, he⟩ := this
            rw [he]
            exact ⟨hs, .createOther hwr hno hnc, hm⟩
      · have hold' : w.old = false := by simpa using hold
        rw [if_neg hold]
        by_cases h1 : disposition = 1
        · subst h1
          simp only [show (1 : Nat) ≠ 2 by decide, ne_eq, not_true_eq_false, false_and, if_false]
          have ho : Spec.Windows.opens w.old 1 := by unfold Spec.Windows.opens; rw [if_neg hold]
          rcases hop with ⟨i, h, rfl, e1, e2, e3⟩ | ⟨rfl, e1⟩
          · rw [e1]
            refine ⟨hs ++ [some i], ?_, hm.add e2 e3⟩
            rw [show Dokan.add ss (.value h) = (.value (.handle hs.length), ss ++ [some h]) by rw [hlen]; rfl]
            exact .create hwr ho hp
          · rw [e1]
            exact ⟨hs, .createMissing hwr ho hp, hm⟩
        · have hno : ¬ Spec.Windows.opens w.old disposition := by unfold Spec.Windows.opens; rw [if_neg hold]; exact h1
          by_cases h3 : disposition = 3
          · subst h3
            simp only [show (3 : Nat) ≠ 2 by decide, ne_eq, not_true_eq_false, and_false, if_false]
            have ho : Spec.Windows.opensOrCreates w.old 3 := by unfold Spec.Windows.opensOrCreates; rw [if_neg hold]
            rcases hop with ⟨i, h, rfl, e1, e2, e3⟩ | ⟨rfl, e1⟩
            · rw [e1]
              refine ⟨hs ++ [some i], ?_, hm.add e2 e3⟩
              rw [show Dokan.add ss (.value h) = (.value (.handle hs.length), ss ++ [some h]) by rw [hlen]; rfl]
              exact .createExisting hwr ho hold' hp
            · rw [e1]
              exact ⟨hs, .createRefused hwr ho hp fun _ => rfl, hm⟩
          · have hnc : ¬ Spec.Windows.opensOrCreates w.old disposition := by unfold Spec.Windows.opensOrCreates; rw [if_neg hold]; exact h3
            have : ∃ e, (if disposition = 2 then (.fails .fileExists : Reply Handle) else if disposition ≠ 1 ∧ disposition ≠ 3 then .fails .accessDenied else Dokan.openAt w path) = .fails e := by
              split
              · exact ⟨_, rfl⟩
              · rw [if_pos ⟨h1, h3⟩]
                exact ⟨_, rfl⟩
            obtain ⟨e, he⟩ := this
            rw [he]
            exact ⟨hs, .createOther hwr hno hnc, hm⟩
  | openDirectory path =>
    obtain ⟨t, hp⟩ := ha path rfl
    unfold Dokan.serve
    simp only
    rcases wide_open hL hS hp with ⟨i, h, rfl, e1, e2, e3⟩ | ⟨rfl, e1⟩
    · rw [e1]
      refine ⟨hs ++ [some i], ?_, hm.add e2 e3⟩
      rw [show Dokan.add ss (.value h) = (.value (.handle hs.length), ss ++ [some h]) by rw [hlen]; rfl]
      exact .openDirectory hp
    · rw [e1]
      exact ⟨hs, .openDirectoryMissing hp, hm⟩
  | read n size offset =>
    unfold Dokan.serve
    simp only
    rcases hm.each n with ⟨h1, h2⟩ | ⟨i, h, h1, h2, h3, h4⟩
    · have h1 : Dokan.lookup ss n = none := h1
      rw [h1]
      exact ⟨hs, .readClosed h2, hm⟩
    · have h2 : Dokan.lookup ss n = some h := h2
      rw [h2]
      simp only
      by_cases hsz : size < 2 ^ 31
      · obtain ⟨e1, e2, e3⟩ := wide_read (w := w) h hsz offset
        rw [e1]
        cases hc : (V.file i).content with
        | none => exact ⟨hs, .readUnknown h1 hc, hm.keep h1 h3 (read_kept hS h3 h4 hc size offset)⟩
        | some content =>
          obtain ⟨g1, g2, g3⟩ := read_good hL.base hS h3 h4 hc hsz offset
          refine ⟨hs, ?_, hm.keep h1 h3 g3⟩
          by_cases ho : offset < 0
          · rw [e3 (g2 ho)]
            exact .readNegative h1 hsz hc ho
          · obtain ⟨o, rfl⟩ : ∃ o : Nat, offset = o := ⟨offset.toNat, by omega⟩
            rw [e2 _ (g1 o rfl)]
            exact .read h1 hsz hc
      · rw [wide_large h (by omega)]
        exact ⟨hs, .readLarge h1 (by omega), hm.keep h1 h3 h4⟩
  | close n => exact ⟨hs.set n none, .close, hm.close n⟩
  | find path =>
    obtain ⟨t, hp⟩ := ha path rfl
    refine ⟨hs, ?_, hm⟩
    have hfind := wide_found hL hS hp
    show Spec.Windows.Step V wideName w.old _ hs _ (Dokan.mapReply .found (Dokan.findFiles w path)) hs
    cases t with
    | some i =>
      obtain ⟨f1, f2⟩ := wide_find hL hS hw hfind
      by_cases hall : ∀ e ∈ V.dirs i, (Utf16.encode e.name).length ≤ 25
      · obtain ⟨f, f', l, e1, e2, e3, _, e5, e6⟩ := f1 hall
        rw [e1]
        exact .find hp hall e2 (fun _ => ⟨e3, trivial⟩) e5 e6
      · have hex : ∃ e ∈ V.dirs i, 25 < (Utf16.encode e.name).length := by
          refine Classical.byContradiction fun hno => hall fun e he => ?_
          exact Nat.le_of_not_lt fun hlt => hno ⟨e, he, hlt⟩
        rw [f2 hex]
        exact .findUnlisted hp hall
    | none =>
      have hfind : Dokan.fileAt w path = ok none := hfind
      unfold Dokan.findFiles
      rw [hfind]
      exact .findMissing hp
  | info path =>
    obtain ⟨t, hp⟩ := ha path rfl
    refine ⟨hs, ?_, hm⟩
    have hfind := wide_found hL hS hp
    show Spec.Windows.Step V wideName w.old _ hs _ (Dokan.mapReply .info (Dokan.getInformation w path)) hs
    unfold Dokan.getInformation
    cases t with
    | some i =>
      obtain ⟨hr, h, h1, h2⟩ := hfind
      obtain ⟨x, e1, e2⟩ := info_good hS hr h2
      rw [h1]
      simp only
      rw [e1]
      exact .info hp e2
    | none =>
      have hfind : Dokan.fileAt w path = ok none := hfind
      rw [hfind]
      exact .infoMissing hp
  | volume n k =>
    refine ⟨hs, .volume (by show 0x80007 / 0x80000 % 2 = 1; decide) fun h => ?_, hm⟩
    unfold Dokan.volumeInformation
    simp only
    rw [if_pos (by unfold Dokan.volumeName; simpa using h)]
    simp
  | unmount => exact ⟨hs, .unmount, hm⟩

/-- Programs that use a volume mounted on Windows see the files of the volume, whatever they ask and in whatever order: every history of requests has the answers that the volume gives. Names are shown
without characters that names cannot have on Windows, and in such a way that the names of the files are seen from them.

The full statement is with `Terms.windows` instead of `Terms.shown`, for all names and volumes, and for a program that is built with `HAVE_DOKAN_LONG_PATHS` too. It is false: for long names see
`c73_long_name` and `c73_overflow`, for devices and sockets `c73_devices`, for times `c73_epoch`, `c73_before_1970` and `c73_exchanged`, for `..` of the root directory `c73_root_parent`, for names with
a slash `c73_slash`, for the right to write `c73_write_data` and for `OPEN_ALWAYS` `c73_open_always`. -/
theorem c73_session_partial : Spec.Windows.ShownNames wideName ∧ ∀ (w : Windows), WideLibraries w → w.longPaths = false → ∀ (s : Storage) (xid : Nat) (rs : List Record) (image : Nat → Option Bytes)
    (cipher : Option (Cipher × Cipher)) (V : View), Mounts w.base s xid rs image cipher V → ∀ requests : List Request, (∀ r ∈ requests, WideAsked V r) →
      Spec.Windows.Trace V wideName w.old Spec.Windows.Terms.shown [] requests (Dokan.serveAll w requests []).1 := by
  refine ⟨wideNames, fun w hL hw s xid rs image cipher V hS requests ha => ?_⟩
  have : ∀ (requests : List Request) (hs : List (Option Nat)) (ss : Dokan.Session), (∀ r ∈ requests, WideAsked V r) → Matches w.base V hs (opened ss) →
      Spec.Windows.Trace V wideName w.old Spec.Windows.Terms.shown hs requests (Dokan.serveAll w requests ss).1 := by
    intro requests
    induction requests with
    | nil => intro hs ss _ _; exact .nil
    | cons r requests ih =>
      intro hs ss ha hm
      obtain ⟨hs', h1, h2⟩ := wide_serve hL hS hw hm (ha r (by simp))
      exact .cons h1 (ih hs' _ (fun r h => ha r (List.mem_cons_of_mem _ h)) h2)
  exact this requests [] [] ha ⟨rfl, fun n => .inl ⟨rfl, by simp⟩⟩

end Verif.Props
