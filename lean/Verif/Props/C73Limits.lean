import Verif.Props.C73
/-!
# C73 A volume mounted on Windows: what is not shown
-/
namespace Verif.Props
open Verif Res Spec BTree FsTree FileRead
open Verif.PathString (ssizeMax)
open Verif.PathWindows (Wide separated)
open Verif.Mount (Handle)
open Verif.Dokan (Windows)
open Verif.Spec.Dokan (Reply Info Found Request Answer)
open Verif.Spec.Windows (InfoOf InfoShown TimeShown FileTime)

variable {w : Windows} {s : Storage} {xid : Nat} {rs : List Record} {image : Nat → Option Bytes} {cipher : Option (Cipher × Cipher)} {V : View}

/-! ## attributes -/

theorem getInformation_exact (hL : WideLibraries w) (hS : Mounts w.base s xid rs image cipher V) {path : Wide} {i : Nat} (hp : Spec.Windows.Path V wideName path (some i)) :
    ∃ x, Dokan.getInformation w path = .value x ∧ (V.file i).fixed.Fits ∧ (x.directory = true ↔ ((V.file i).type / 4 % 2 = 1 ∧ (V.file i).type ≠ 14)) ∧ x.creation = Dokan.filetime (Mount.signed64 (V.file i).fixed.modified) ∧
      x.access = Dokan.filetime (Mount.signed64 (V.file i).fixed.accessed) ∧ x.write = Dokan.filetime (Mount.signed64 (V.file i).fixed.created) := by
  obtain ⟨hr, h, h1, h2⟩ := wide_found hL hS hp
  obtain ⟨x, e1, _, e3⟩ := info_exact hS hr h2
  refine ⟨x, ?_, h2.good.mirrors.fits, e3⟩
  unfold Dokan.getInformation
  rw [h1]
  simp only
  rw [e1]
  rfl

/-- Block devices (type 6) and sockets (type 12) are shown as directories: the bit that is tested is part of their types too. -/
theorem c73_devices (hL : WideLibraries w) (hS : Mounts w.base s xid rs image cipher V) {path : Wide} {i : Nat} (hp : Spec.Windows.Path V wideName path (some i))
    (ht : (V.file i).type = 6 ∨ (V.file i).type = 12) : ∃ x, Dokan.getInformation w path = .value x ∧ x.directory = true ∧ ¬ InfoOf (V.file i) x := by
  obtain ⟨x, h1, _, h3, _⟩ := getInformation_exact hL hS hp
  have hd : x.directory = true := h3.2 (by omega)
  exact ⟨x, h1, hd, fun h => by have := h.directory.1 hd; omega⟩

/-- A file that was accessed at the beginning of 1970 is shown as one that was accessed in 1601. -/
theorem c73_epoch (hL : WideLibraries w) (hS : Mounts w.base s xid rs image cipher V) {path : Wide} {i : Nat} (hp : Spec.Windows.Path V wideName path (some i))
    (ht : (V.file i).fixed.accessed = 0) : ∃ x, Dokan.getInformation w path = .value x ∧ x.access = 0 ∧ ¬ InfoOf (V.file i) x := by
  obtain ⟨x, h1, _, _, _, h5, _⟩ := getInformation_exact hL hS hp
  rw [ht] at h5
  have h5 : x.access = 0 := h5
  refine ⟨x, h1, h5, fun h => ?_⟩
  have := h.access
  rw [ht, h5] at this
  exact absurd this (by decide)

/-- Times before 1970 are shown as later ones, unless they have whole intervals. -/
theorem c73_before_1970 (hL : WideLibraries w) (hS : Mounts w.base s xid rs image cipher V) {path : Wide} {i : Nat} (hp : Spec.Windows.Path V wideName path (some i))
    (ht : 2 ^ 63 ≤ (V.file i).fixed.accessed) (hm : Spec.Windows.nanoseconds (V.file i).fixed.accessed % 100 ≠ 0) :
    ∃ x, Dokan.getInformation w path = .value x ∧ Spec.Windows.nanoseconds (V.file i).fixed.accessed + 11644473600 * 1000000000 < (x.access : Int) * 100 ∧ ¬ InfoOf (V.file i) x := by
  obtain ⟨x, h1, hf, _, _, h5, _⟩ := getInformation_exact hL hS hp
  have hlt := hf.accessed
  have key : Spec.Windows.nanoseconds (V.file i).fixed.accessed + 11644473600 * 1000000000 < (x.access : Int) * 100 := by
    rw [h5]
    clear h5
    generalize (V.file i).fixed.accessed = a at *
    unfold Spec.Windows.nanoseconds at *
    unfold Dokan.filetime Mount.signed64
    simp only [if_neg (show ¬ a < 2 ^ 63 by omega)] at hm ⊢
    rw [if_neg (by omega)]
    have hd : ((a : Int) - 2 ^ 64).tdiv 100 = -((2 ^ 64 - (a : Int)) / 100) := by
      rw [show (a : Int) - 2 ^ 64 = -(2 ^ 64 - (a : Int)) by omega, Int.neg_tdiv, Int.tdiv_eq_ediv_of_nonneg (by omega)]
    rw [hd]
    omega
  exact ⟨x, h1, key, fun h => by have := h.access.1; omega⟩

/-- Times of creation and of modification are exchanged. -/
theorem c73_exchanged (hL : WideLibraries w) (hS : Mounts w.base s xid rs image cipher V) {path : Wide} {i : Nat} (hp : Spec.Windows.Path V wideName path (some i))
    (hc : TimeShown (V.file i).fixed.created) (hm : TimeShown (V.file i).fixed.modified) :
    ∃ x, Dokan.getInformation w path = .value x ∧ FileTime (V.file i).fixed.modified x.creation ∧ FileTime (V.file i).fixed.created x.write ∧
      ((V.file i).fixed.created + 100 ≤ (V.file i).fixed.modified → (V.file i).fixed.modified < 2 ^ 63 → ¬ InfoOf (V.file i) x) := by
  obtain ⟨x, h1, hf, _, h4, _, h6⟩ := getInformation_exact hL hS hp
  have g1 : FileTime (V.file i).fixed.modified x.creation := by rw [h4]; exact filetime_shown hf.modified hm
  have g2 : FileTime (V.file i).fixed.created x.write := by rw [h6]; exact filetime_shown hf.created hc
  refine ⟨x, h1, g1, g2, fun ha hb h => ?_⟩
  have h7 := h.creation
  have h8 := g1
  unfold FileTime Spec.Windows.nanoseconds at h7 h8
  rw [if_pos (by omega)] at h7 h8
  omega

/-! ## directories -/

/-- A directory that has a file with a name of more than 25 characters of UTF-16 cannot be listed: ten characters are provided for each. -/
theorem c73_long_name (hL : WideLibraries w) (hS : Mounts w.base s xid rs image cipher V) (hw : w.longPaths = false) {path : Wide} {i : Nat} (hp : Spec.Windows.Path V wideName path (some i))
    {e : DirEntry} (he : e ∈ V.dirs i) (hl : 25 < (Utf16.encode e.name).length) : Dokan.findFiles w path = .fails .generic :=
  (wide_find hL hS hw (wide_found hL hS hp)).2 ⟨e, he, hl⟩

/-- With `HAVE_DOKAN_LONG_PATHS` more characters are copied than there are in `cFileName`. -/
theorem c73_overflow (hL : WideLibraries w) (hS : Mounts w.base s xid rs image cipher V) (hw : w.longPaths = true) {path : Wide} {i : Nat} (hp : Spec.Windows.Path V wideName path (some i))
    (hall : ∀ e ∈ V.dirs i, (Utf16.encode e.name).length ≤ 3276) {e : DirEntry} (he : e ∈ V.dirs i) (hl : 25 < (Utf16.encode e.name).length) : Dokan.findFiles w path = .ub := by
  obtain ⟨hr, h, h1, hg⟩ := wide_found hL hS hp
  have hid : h.node.inode.identifier = i := by rw [hg.good.mirrors.identifier, hS.has.identifier i hr]
  obtain ⟨x, x1, _⟩ := info_good hS hr hg
  obtain ⟨short, s1, _⟩ := fill_good (w := w) (name := [0x2e]) (size := 2) (by decide) x
  obtain ⟨f', p1, _⟩ := wide_parent hL hS hr hg
  have hlist := directory_listed hS.ofTree hS.holds (hS.has.hierarchy.directory i hr)
  rw [← hid] at hlist
  obtain ⟨n1, d1, d2⟩ := determine_listed hg.good.kept hlist
  have hsubs : ∀ (left index : Nat) (n : FileNode), index + left = (V.dirs i).length → KeptEntries (lookups w.base.files) h.node.inode n →
      (∃ e ∈ (V.dirs i).drop index, 25 < (Utf16.encode e.name).length) → Dokan.fillSubs w left index n = ub := by
    intro left
    induction left with
    | zero =>
      intro index n hl hk hex
      rw [List.drop_eq_nil_of_le (by omega)] at hex
      obtain ⟨_, h, _⟩ := hex
      cases h
    | succ left ih =>
      intro index n hl hk hex
      have hlt : index < (V.dirs i).length := by omega
      obtain ⟨n', h1, h2⟩ := determine_listed hk hlist
      obtain ⟨x, g1, g2, _, g4⟩ := wide_sub hL hS hr (List.getElem_mem hlt)
      have hel : elementAt ((V.dirs h.node.inode.identifier).map (NameLookup.recordOf V.format)) (index : Int) = ok (NameLookup.recordOf V.format (V.dirs i)[index]) := by
        unfold elementAt
        rw [if_neg (by omega), Int.toNat_natCast, hid, List.getElem?_map, List.getElem?_eq_getElem hlt]
        rfl
      have hcall : FileRead.call (lookups w.base.files) (.sub index) n = (ok (.node x), n') := by
        unfold FileRead.call
        simp only [h1]
        rw [hel, ok_bind, g1]
        rfl
      unfold Dokan.fillSubs
      rw [hcall]
      simp only
      rw [List.drop_eq_getElem_cons hlt] at hex
      by_cases hlong : 25 < (Utf16.encode (V.dirs i)[index].name).length
      · rw [g4 hlong (hall _ (List.getElem_mem hlt)) hw]
        rfl
      · obtain ⟨f, f1, _⟩ := g2 (by omega)
        obtain ⟨e, he, hel⟩ := hex
        rcases List.mem_cons.1 he with rfl | he
        · exact absurd hel hlong
        · rw [f1, ok_bind, ih (index + 1) n' (by omega) h2 ⟨e, he, hel⟩]
          rfl
  have hall' : Dokan.fillAll w h.node = Dokan.fillSubs w (V.dirs i).length 0 n1 := by
    unfold Dokan.fillAll FileRead.call
    simp only [d1, List.length_map, hid]
  unfold Dokan.findFiles
  rw [h1]
  simp only
  rw [x1, s1, ok_bind, p1, ok_bind, hall', hsubs _ 0 n1 (by omega) d2 ⟨e, by simpa using he, hl⟩, ub_bind]
  rfl

/-- In the root directory `..` is a file without attributes, not a directory. -/
theorem c73_root_parent (hL : WideLibraries w) (hS : Mounts w.base s xid rs image cipher V) (hw : w.longPaths = false) (hall : ∀ e ∈ V.dirs 2, (Utf16.encode e.name).length ≤ 25) :
    ∃ f f' l, Dokan.findFiles w [0x5c] = .value (f :: f' :: l) ∧ f'.name = [0x2e, 0x2e] ∧ f'.info = zeroInfo ∧ ((V.file 2).type = 4 → ¬ InfoOf (V.file 2) f'.info) := by
  have hp : Spec.Windows.Path V wideName [0x5c] (some 2) := ⟨[], rfl, by decide, by simp, .here 2⟩
  obtain ⟨f, f', l, h1, _, h3, h4, _⟩ := (wide_find hL hS hw (wide_found hL hS hp)).1 hall
  refine ⟨f, f', l, h1, h3, h4 rfl, fun ht h => ?_⟩
  have := h.directory.2 ht
  rw [h4 rfl] at this
  cases this

/-! ## names -/

theorem wide_nodeAt (hL : WideLibraries w) {names : List (List Nat)} (h0 : names ≠ []) (hn : ∀ n ∈ names, n ≠ [] ∧ ∀ c ∈ n, Scalar c ∧ c ≠ 0)
    (hl : (separated 0x5c (names.map wideName)).length < 2 ^ 62 - 1) :
    Dokan.fileAt w (separated 0x5c (names.map wideName)) = (do
      let r ← FileRead.byPath w.base.text.decoder w.wide.decoder 0x2f w.base.files (separated 0x2f (names.map Utf16.encode))
      match r with
      | none => return none
      | some r => return some (.new [] { inode := r.1, record := r.2 })) := by
  have hlast : 0x5c ∉ (separated 0x5c (names.map wideName)).getLast? := by
    obtain ⟨a, n, rfl⟩ : ∃ a n, names = a ++ [n] := ⟨names.dropLast, names.getLast h0, (List.dropLast_concat_getLast h0).symm⟩
    have h1 := wideNames.nonempty n (hn n (by simp)).1
    have h2 := wideNames.allowed n (hn n (by simp)).2
    unfold separated
    rw [List.map_append, List.flatMap_append]
    simp only [List.map_cons, List.map_nil, List.flatMap_cons, List.flatMap_nil, List.append_nil]
    rw [List.getLast?_append, List.getLast?_cons_of_ne_nil h1]
    cases hg : (wideName n).getLast? with
    | none => exact absurd (List.getLast?_eq_none_iff.1 hg) h1
    | some b =>
      intro h
      have h : b = 0x5c := Option.some.inj h
      exact h2 0x5c (h ▸ List.mem_of_getLast? hg) (by decide)
  have hzero : ∀ b ∈ separated 0x5c (names.map wideName), b ≠ 0 := by
    intro b hb
    obtain ⟨x, h1, h2⟩ := List.mem_flatMap.1 hb
    obtain ⟨n, h3, rfl⟩ := List.mem_map.1 h1
    rcases List.mem_cons.1 h2 with rfl | h2
    · decide
    · exact wide_nonzero (hn n h3).2 b h2
  have hzero' : ∀ b ∈ separated 0x2f (names.map Utf16.encode), b ≠ 0 := by
    intro b hb
    obtain ⟨x, h1, h2⟩ := List.mem_flatMap.1 hb
    obtain ⟨n, h3, rfl⟩ := List.mem_map.1 h1
    rcases List.mem_cons.1 h2 with rfl | h2
    · decide
    · exact PathWindows.encode_nonzero (fun c hc => (hn n h3).2 c hc) b h2
  have hpos : 0 < (separated 0x5c (names.map wideName)).length := by
    cases names with
    | nil => exact absurd rfl h0
    | cons n l => simp [separated]
  have hpl : Dokan.pathLength (separated 0x5c (names.map wideName)) = (separated 0x5c (names.map wideName)).length := by
    unfold Dokan.pathLength
    rw [if_neg]
    rintro ⟨_, h⟩
    rw [← List.getLast?_eq_getElem?] at h
    exact hlast h
  have hcopy := PathWindows.copyTo_names hL.wide names h0 (fun n h => (hn n h).2) (by show (separated 0x5c (names.map wideName)).length < _; unfold ssizeMax; omega)
  have hcopy : PathWindows.copyTo w.wide (separated 0x5c (names.map wideName)) = ok (separated 0x2f (names.map Utf16.encode)) := hcopy
  rw [wide_fileAt (PathWindows.cString_eq hzero) hpos hpl (by unfold ssizeMax; omega)]
  unfold Dokan.nodeAt
  rw [hcopy, ok_bind, PathWindows.cString_eq hzero']
  cases FileRead.byPath w.base.text.decoder w.wide.decoder 0x2f w.base.files (separated 0x2f (names.map Utf16.encode)) with
  | err => rw [err_bind, err_bind, err_bind]
  | ub => rw [ub_bind, ub_bind, ub_bind]
  | ok r => cases r <;> rfl

/-- A name with a slash, which is shown with an escape, is taken for two names: what is shown as `\a^x2fb` is opened as `\a\b`, whatever the volume has. -/
theorem c73_slash (hL : WideLibraries w) {a b : List Nat} (ha : a ≠ [] ∧ ∀ c ∈ a, Scalar c ∧ c ≠ 0) (hb : b ≠ [] ∧ ∀ c ∈ b, Scalar c ∧ c ≠ 0)
    (hl : (0x5c :: wideName (a ++ 0x2f :: b)).length < 2 ^ 62 - 1) :
    Dokan.openAt w (0x5c :: wideName (a ++ 0x2f :: b)) = Dokan.openAt w (0x5c :: wideName a ++ 0x5c :: wideName b) := by
  have hx : 0x5c :: wideName (a ++ 0x2f :: b) = separated 0x5c ([a ++ 0x2f :: b].map wideName) := by simp [separated]
  have hy : 0x5c :: wideName a ++ 0x5c :: wideName b = separated 0x5c ([a, b].map wideName) := by simp [separated]
  have hle : (0x5c :: wideName a ++ 0x5c :: wideName b).length ≤ (0x5c :: wideName (a ++ 0x2f :: b)).length := by
    have : wideName (a ++ 0x2f :: b) = wideName a ++ (PathWindows.escaped 0x2f ++ wideName b) := by simp [wideName]
    have h2 := List.length_pos_iff.2 (show PathWindows.escaped 0x2f ≠ [] from fun h => PathWindows.escaped_ne_nil 0x2f [] (by simpa using h))
    rw [this]
    simp only [List.length_append, List.length_cons]
    omega
  have hlen : (0x5c :: wideName a ++ 0x5c :: wideName b).length < 2 ^ 62 - 1 := by omega
  rw [hx] at hl ⊢
  rw [hy] at hlen ⊢
  have h1 := wide_nodeAt hL (names := [a ++ 0x2f :: b]) (by simp) (fun n hn => by
    rw [List.mem_singleton] at hn
    subst hn
    refine ⟨by simp, fun c hc => ?_⟩
    rcases List.mem_append.1 hc with hc | hc
    · exact ha.2 c hc
    · rcases List.mem_cons.1 hc with rfl | hc
      · exact ⟨by decide, by decide⟩
      · exact hb.2 c hc) hl
  have h2 := wide_nodeAt hL (names := [a, b]) (by simp) (fun n hn => by
    simp only [List.mem_cons, List.not_mem_nil, or_false] at hn
    rcases hn with rfl | rfl
    · exact ha
    · exact hb) hlen
  have he : separated 0x2f ([a ++ 0x2f :: b].map Utf16.encode) = separated 0x2f ([a, b].map Utf16.encode) := by simp [separated, Utf16.encode, Utf16.encodeChar]
  unfold Dokan.openAt
  rw [h1, h2, he]

/-- A file with such a name is in the listing of the root directory and is not found under its name, if there is no file in a directory with the first part of the name. -/
theorem c73_slash_missing (hL : WideLibraries w) (hS : Mounts w.base s xid rs image cipher V) (hw : w.longPaths = false) (hall : ∀ e ∈ V.dirs 2, (Utf16.encode e.name).length ≤ 25) {a b : List Nat}
    {e : DirEntry} (he : e ∈ V.dirs 2) (hname : e.name = a ++ 0x2f :: b) (ha : Component V.format a) (hb : Component V.format b) (hno : V.Leads 2 [a, b] none)
    (hl : (0x5c :: wideName e.name).length < 2 ^ 62 - 1) :
    (∃ l, Dokan.findFiles w [0x5c] = .value l ∧ wideName e.name ∈ l.map (·.name)) ∧ Dokan.openAt w (0x5c :: wideName e.name) = .fails .notFound := by
  constructor
  · have hp : Spec.Windows.Path V wideName [0x5c] (some 2) := ⟨[], rfl, by decide, by simp, .here 2⟩
    obtain ⟨f, f', l, h1, _, _, _, _, h6⟩ := (wide_find hL hS hw (wide_found hL hS hp)).1 hall
    refine ⟨_, h1, ?_⟩
    have : ∀ {es : List DirEntry} {l : List Found}, Spec.Windows.Listed V wideName Spec.Windows.Terms.shown es l → e ∈ es → wideName e.name ∈ l.map (·.name) := by
      intro es l h
      induction h with
      | nil => intro h; cases h
      | cons h _ ih =>
        intro hm
        rcases List.mem_cons.1 hm with rfl | hm
        · rw [List.map_cons, h.1]
          exact List.mem_cons_self
        · exact List.mem_cons_of_mem _ (ih hm)
    exact List.mem_cons_of_mem _ (List.mem_cons_of_mem _ (this h6 he))
  · have hc : ∀ {f n}, Component f n → n ≠ [] ∧ ∀ c ∈ n, Scalar c ∧ c ≠ 0 := fun h => ⟨h.nonempty, fun c hc => ⟨(h.characters c hc).1, (h.characters c hc).2.1⟩⟩
    rw [hname] at hl ⊢
    rw [c73_slash hL (hc ha) (hc hb) hl]
    have hle : (0x5c :: wideName a ++ 0x5c :: wideName b).length ≤ (0x5c :: wideName (a ++ 0x2f :: b)).length := by
      have : wideName (a ++ 0x2f :: b) = wideName a ++ (PathWindows.escaped 0x2f ++ wideName b) := by simp [wideName]
      have h2 := List.length_pos_iff.2 (show PathWindows.escaped 0x2f ≠ [] from fun h => PathWindows.escaped_ne_nil 0x2f [] (by simpa using h))
      rw [this]
      simp only [List.length_append, List.length_cons]
      omega
    have hp : Spec.Windows.Path V wideName (0x5c :: wideName a ++ 0x5c :: wideName b) none :=
      ⟨[a, b], by simp [Spec.Windows.pathOf], by omega, fun n hn => by
        simp only [List.mem_cons, List.not_mem_nil, or_false] at hn
        rcases hn with rfl | rfl
        · exact ha
        · exact hb, hno⟩
    have hf : Dokan.fileAt w (0x5c :: wideName a ++ 0x5c :: wideName b) = ok none := wide_found hL hS hp
    unfold Dokan.openAt
    rw [hf]

/-! ## opening -/

/-- Before Dokan 0.8 a file that exists is not opened with `OPEN_ALWAYS`, which opens files that exist: the error says that it does not. -/
theorem c73_open_always (hL : WideLibraries w) (hS : Mounts w.base s xid rs image cipher V) (ho : w.old = true) {path : Wide} {i : Nat} (hp : Spec.Windows.Path V wideName path (some i)) (access : Nat)
    (ha : ¬ Spec.Windows.changes access) : Dokan.create w path access 4 = .fails .notFound ∧ ∃ h, Dokan.create w path access 3 = .value h := by
  have ha : ¬ access / 0x40000000 % 2 ≠ 0 := fun h => ha (.inl h)
  have hop := wide_open hL hS hp
  unfold Dokan.create
  rw [if_neg ha, if_pos ho, if_neg ha, if_pos ho]
  refine ⟨rfl, ?_⟩
  rcases hop with ⟨i, h, _, e1, _⟩ | ⟨h, _⟩
  · exact ⟨h, e1⟩
  · cases h

/-- A file is opened for writing, on a volume that is not written: only `GENERIC_WRITE` is refused, not the right to write data that Windows turns it into. -/
theorem c73_write_data (hL : WideLibraries w) (hS : Mounts w.base s xid rs image cipher V) (ho : w.old = false) {path : Wide} {i : Nat} (hp : Spec.Windows.Path V wideName path (some i)) :
    Spec.Windows.changes 2 ∧ ∃ h, Dokan.create w path 2 1 = .value h := by
  refine ⟨.inr (.inl (by decide)), ?_⟩
  have hop := wide_open hL hS hp
  unfold Dokan.create
  rw [if_neg (by decide), if_neg (by rw [ho]; decide), if_neg (by decide), if_neg (by decide)]
  rcases hop with ⟨i, h, _, e1, _⟩ | ⟨h, _⟩
  · exact ⟨h, e1⟩
  · cases h

end Verif.Props
